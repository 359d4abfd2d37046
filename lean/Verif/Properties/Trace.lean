import Verif.Proofs.TraceHashMany
import Verif.Properties.Batch
/-!
# Which compressions are run: C48 (exactly the prescribed ones), C49 (data independence), C50 (SIMD lanes are kept busy)

The theorems are about the instrumented functions of `Verif/Model/Trace.lean`, whose names end in `T`. `C48_ghost` says that the
instrumentation is a ghost. The vocabulary is that of `Verif/TraceSpec.lean`.
-/
namespace Blake2
open Spec

variable {a : Alg}

/-! ## The instrumentation changes nothing -/

/-- Forgetting the log of an instrumented function gives the function of the model that the other theorems are about. -/
theorem C48_ghost :
    (∀ (ι : Type) (who : ι) (p : Params a) (x : List Byte), (p.hashT who x).erase = p.hash x) ∧
    (∀ (ι : Type) (who : ι) (s : State a) (x : List Byte), (s.updateT who x).erase = s.update x) ∧
    (∀ (ι : Type) (who : ι) (s : State a), (s.finalizeT who).erase = s.finalize) ∧
    (∀ pairs : List (State a × List Byte), (updateManyT pairs).erase = updateMany pairs) ∧
    (∀ (ι : Type) (who : ι) (p : Params a) (x : List Byte), (HashManyJob.newT who p x).erase = HashManyJob.new p x) ∧
    (∀ jobs : List (HashManyJob a), (hashManyT jobs).erase = hashMany jobs) ∧
    (∀ reqs : List (Platform × List Setter × List Byte), (hashAllT (a := a) reqs).erase = (do
      let items ← reqs.mapM fun q => do
        let p ← (Params.new a q.1).build q.2.1
        .ok (p, q.2.2)
      let jobs ← items.mapM fun q => HashManyJob.new q.1 q.2
      hashMany jobs)) ∧
    (∀ (p : PParams a) (x : List Byte), (p.hashT x).erase = p.hash x) ∧
    (∀ (s : PState a) (x : List Byte), (s.updateT x).erase = s.update x) ∧
    (∀ s : PState a, s.finalizeT.erase = s.finalize) ∧
    (∀ (dbg : Bool) (ss : List (State a)) (ops : List (Op Platform)),
      (execAllT dbg ss ops).map (fun r => (r.1, r.2.map Prod.fst)) = execAll dbg ss ops) := by
  refine ⟨fun _ => hashT_erase, fun _ => updateT_erase, fun _ => finalizeT_erase, updateManyT_erase, fun _ => newT_erase,
    hashManyT_erase, hashAllT_erase, pparams_hashT_erase, pstate_updateT_erase, pstate_finalizeT_erase, fun dbg ss ops => ?_⟩
  rw [← execAllT_erase]
  cases execAllT dbg ss ops <;> rfl

/-! ## C48 -/

/-- C48, one-shot. `Params::hash` runs exactly the compressions RFC 7693 prescribes for the keyed input, one at a time and in
order. -/
theorem C48_hash (plat : Platform) (calls : List Setter) (p : Params a) (hb : (Params.new a plat).build calls = .ok p)
    (x : List Byte) :
    ∃ h log, (p.hashT () x).run = .ok (h, log) ∧
      log = (rfcCalls a (keyedData a (configOf a calls).key x) (configOf a calls).lastNode).map fun c => [((), c)] :=
  ⟨_, _, hashT_log (built_rep hb).1 () x, rfl⟩

example : ∃ p, (Params.new .b .AVX2).build [.key [1, 2, 3], .lastNode true] = .ok p ∧
    ∃ h log, (p.hashT () (List.replicate 300 7)).run = .ok (h, log) ∧ log.length = 4 := by
  obtain ⟨p, hp⟩ := C03_nonvacuous (a := .b) .AVX2 [.key [1, 2, 3], .lastNode true] (by decide)
  obtain ⟨h, log, e, hl⟩ := C48_hash _ _ p hp (List.replicate 300 7)
  refine ⟨p, hp, h, log, e, ?_⟩
  rw [hl]
  decide +kernel

/-- C48, incremental. In any history of operations on any number of hashers (creation, cloning, updates in any pieces, batches,
flushes, flag changes, finalizations), every operation runs exactly the compressions that are due: see `Op.Logs`. -/
theorem C48_histories (dbg : Bool) (ops : List (Op Platform)) (hv : ValidHistory a dbg [] ops) :
    ∃ ss logs, execAllT dbg ([] : List (State a)) ops = .ok (ss, (answers a [] ops).zip logs) ∧ LogsHistory a [] ops logs ∧
      ∀ log ∈ logs, ∀ p ∈ log, p.length ∈ [1, loDegree a, hiDegree a] := by
  obtain ⟨ss, logs, e, _, h, w⟩ := execAllT_logs rel_nil dbg ops hv
  exact ⟨ss, logs, e, h, w⟩

example : ∃ ss logs, execAllT true ([] : List (State .b)) sampleHistory = .ok (ss, (answers .b [] sampleHistory).zip logs) ∧
    LogsHistory .b [] sampleHistory logs :=
  let ⟨ss, logs, h1, h2, _⟩ := C48_histories (a := .b) true _ sampleHistory_valid
  ⟨ss, logs, h1, h2⟩

/-- The starting point of `Op.Logs`: a hasher to which nothing has been fed owes no call but the one of its finalization. -/
theorem C48_fresh (calls : List Setter) (h : ∀ x ∈ calls, x.InRange a) :
    (({ config := configOf a calls, msg := [] } : Hasher).calls a).dropLast = [] := by
  obtain ⟨p, _, hr, _⟩ := rep_build (rep_new a .Portable) calls h
  exact calls_fresh hr.valid

example : (({ config := configOf .s [.key [1]], msg := [] } : Hasher).calls .s).length = 1 := by decide +kernel

/-- C48, batches. Building parameters, creating a `HashManyJob` for every request and running them all with `hash_many`: for every
request exactly the compressions RFC 7693 prescribes for it are run, in order, whatever the other requests are; no pass serves
a request twice; and passes are as wide as one of the three loops. -/
theorem C48_hash_many (reqs : List (Platform × List Setter × List Byte)) (h : ∀ q ∈ reqs, ∀ x ∈ q.2.1, x.InRange a) :
    ∃ jobs log, (hashAllT (a := a) reqs).run = .ok (jobs, log) ∧
      (∀ i plat calls x, reqs[i]? = some (plat, calls, x) →
        callsOf i log = rfcCalls a (keyedData a (configOf a calls).key x) (configOf a calls).lastNode) ∧
      (∀ i, reqs.length ≤ i → callsOf i log = []) ∧
      ∀ p ∈ log, (p.map Prod.fst).Nodup ∧ p.length ∈ [1, loDegree a, hiDegree a] := by
  obtain ⟨items, _, hl, hg, e⟩ := hashAllT_log (a := a) reqs h
  have hinj : ∀ i j : Fin (items.map fun q => newJob q.1 q.2).length, i.val = j.val → i = j := fun _ _ => Fin.ext
  refine ⟨_, _, e, fun i plat calls x hx => ?_, fun i hi => ?_, fun p hp => ?_⟩
  · obtain ⟨p, hp, hr, _⟩ := hg i _ hx
    obtain ⟨hi, hp'⟩ := List.getElem?_eq_some_iff.1 hp
    have hi' : i < (items.map fun q => newJob q.1 q.2).length := by rw [List.length_map]; exact hi
    rw [callsOf_eq_mine, Sched.mine_append, ← callsOf_eq_mine, ← callsOf_eq_mine, mine_created]
    have hc := callsOf_rename hinj ⟨i, hi'⟩ (Sched.run (fun i : Fin (items.map fun q => newJob q.1 q.2).length =>
              hashPull (items.map fun q => newJob q.1 q.2)[i])
            (implDegree a (hashImp (items.map fun q => newJob q.1 q.2))) (hiDegree a) (loDegree a) (List.finRange _))
    simp only at hc
    rw [hc, callsOf_eq_mine, Sched.run_mine _ _ _ _ _ (List.nodup_finRange _), if_pos (List.mem_finRange _)]
    simp only [Nat.zero_le, if_true, Nat.sub_zero, hp, Option.map_some, Option.getD_some, Fin.getElem_fin, List.getElem_map,
      hp', hashPull, List.nil_append]
    exact newCalls_eq hr x
  · rw [callsOf_eq_mine, Sched.mine_append, ← callsOf_eq_mine, ← callsOf_eq_mine, mine_created,
      List.getElem?_eq_none (by omega), callsOf_rename_other]
    · simp
    · intro j
      have := Nat.lt_of_lt_of_eq j.2 (List.length_map ..)
      omega
  · rcases List.mem_append.1 hp with hp | hp
    · obtain ⟨h1, h2⟩ := created_lanes items 0 p hp
      exact ⟨h1, by rw [h2]; simp⟩
    · have hs := Sched.run_shaped (fun i : Fin (items.map fun q => newJob q.1 q.2).length =>
          hashPull (items.map fun q => newJob q.1 q.2)[i])
        (degree := implDegree a (hashImp (items.map fun q => newJob q.1 q.2))) (hi := hiDegree a) (lo := loDegree a)
        (W := [1, loDegree a, hiDegree a]) (by simp) (by simp) (by simp) _ (List.nodup_finRange _)
      refine ⟨rename_nodup hinj (fun q hq => (hs q hq).1) p hp, ?_⟩
      obtain ⟨q, hq, rfl⟩ := List.mem_map.1 hp
      rw [List.length_map]
      exact (hs q hq).2

/-- Three requests of different lengths, one of them keyed. -/
def sampleRequests : List (Platform × List Setter × List Byte) :=
  [(.AVX2, [.key [1, 2]], List.replicate 300 5), (.AVX2, [], []), (.AVX2, [.lastNode true], List.replicate 1000 6),
   (.AVX2, [.hashLength 20], List.replicate 128 9), (.AVX2, [.key [3]], [])]

theorem sampleRequests_inRange : ∀ q ∈ sampleRequests, ∀ x ∈ q.2.1, x.InRange .b := by decide

example : ∃ jobs log, (hashAllT (a := .b) sampleRequests).run = .ok (jobs, log) ∧
    callsOf 2 log = rfcCalls .b (keyedData .b [] (List.replicate 1000 6)) true :=
  let ⟨jobs, log, h1, h2, _⟩ := C48_hash_many (a := .b) sampleRequests sampleRequests_inRange
  ⟨jobs, log, h1, h2 2 .AVX2 [.lastNode true] (List.replicate 1000 6) (by simp only [sampleRequests]; rfl)⟩

/-! ## C49 -/

/-- C49, one-shot. Two calls of `Params::hash` whose keys and inputs have the same lengths and whose last-node flags agree run
the same sequence of compressions, up to the contents of the blocks. -/
theorem C49_hash (plat plat' : Platform) (calls calls' : List Setter) (p p' : Params a)
    (hb : (Params.new a plat).build calls = .ok p) (hb' : (Params.new a plat').build calls' = .ok p') (x x' : List Byte)
    (hk : (configOf a calls).key.length = (configOf a calls').key.length)
    (hl : (configOf a calls).lastNode = (configOf a calls').lastNode) (hx : x.length = x'.length) :
    ∃ h log h' log', (p.hashT () x).run = .ok (h, log) ∧ (p'.hashT () x').run = .ok (h', log') ∧ shapes log = shapes log' := by
  have hr := (built_rep hb).1
  have hr' := (built_rep hb').1
  refine ⟨_, _, _, _, hashT_log hr () x, hashT_log hr' () x', shapes_solo _ ?_⟩
  have hlen : (keyedData a (configOf a calls).key x).length = (keyedData a (configOf a calls').key x').length := by
    rw [keyedData_eq, keyedData_eq, List.length_append, List.length_append, keyPart_len hr.valid, keyPart_len hr'.valid, hx]
    simp only [nil_iff_of_length hk]
  rw [rfcCalls_shape _ _ hlen, hl]

example : ∃ p p', (Params.new .s .SSE41).build [.key [1, 2, 3]] = .ok p ∧
    (Params.new .s .SSE41).build [.salt [9], .key [4, 5, 6]] = .ok p' ∧
    ∃ h log h' log', (p.hashT () (List.replicate 300 7)).run = .ok (h, log) ∧
      (p'.hashT () (List.replicate 300 8)).run = .ok (h', log') ∧ shapes log = shapes log' := by
  obtain ⟨p, hp⟩ := C03_nonvacuous (a := .s) .SSE41 [.key [1, 2, 3]] (by decide)
  obtain ⟨p', hp'⟩ := C03_nonvacuous (a := .s) .SSE41 [.salt [9], .key [4, 5, 6]] (by decide)
  exact ⟨p, p', hp, hp', C49_hash _ _ _ _ p p' hp hp' _ _ rfl rfl
    (List.length_replicate.trans List.length_replicate.symm)⟩

/-- C49, incremental. Two histories that differ only in the contents of keys, inputs and other parameters run the same
compressions up to the contents of the blocks: the same number of passes in every operation, with the same number of lanes, occupied
by the same hashers, with the same counters and flags. -/
theorem C49_histories (dbg : Bool) (ops ops' : List (Op Platform)) (hal : AlikeHistory a ops ops')
    (hv : ValidHistory a dbg [] ops) (hv' : ValidHistory a dbg [] ops') :
    ∃ ss out ss' out', execAllT dbg ([] : List (State a)) ops = .ok (ss, out) ∧
      execAllT dbg ([] : List (State a)) ops' = .ok (ss', out') ∧
      out.map (fun o => shapes o.2) = out'.map (fun o => shapes o.2) :=
  execAllT_shape rel_nil rel_nil ⟨rfl, fun i h h' e => by simp at e⟩ rfl hal hv hv'

/-- The sample history with other data. -/
def sampleHistory' : List (Op Platform) :=
  [.create .AVX2 [.key [7, 8], .salt [1]], .create .Portable [.hashLength 30], .update 0 [9, 9, 9], .clone 0, .finalize 0,
   .updateMany [(2, List.replicate 500 3), (0, [5]), (1, List.replicate 129 4)], .setLastNode 1 true, .flush 1, .write 1 [6],
   .finalize 0, .finalize 1, .count 2]

example : ∃ ss out ss' out', execAllT true ([] : List (State .b)) sampleHistory = .ok (ss, out) ∧
    execAllT true ([] : List (State .b)) sampleHistory' = .ok (ss', out') ∧
    out.map (fun o => shapes o.2) = out'.map (fun o => shapes o.2) := by
  refine C49_histories (a := .b) true _ _ ?_ sampleHistory_valid (by decide +kernel)
  simp only [sampleHistory, sampleHistory', AlikeHistory, Op.Alike]
  decide +kernel

/-- C49, batches. The schedule of a whole `hash_many` session depends only on the platforms, the lengths of keys and inputs and the
last-node flags. -/
theorem C49_hash_many (reqs reqs' : List (Platform × List Setter × List Byte)) (h : ∀ q ∈ reqs, ∀ x ∈ q.2.1, x.InRange a)
    (h' : ∀ q ∈ reqs', ∀ x ∈ q.2.1, x.InRange a)
    (hal : reqs.map (fun q => (q.1, (configOf a q.2.1).key.length, (configOf a q.2.1).lastNode, q.2.2.length)) =
      reqs'.map (fun q => (q.1, (configOf a q.2.1).key.length, (configOf a q.2.1).lastNode, q.2.2.length))) :
    ∃ jobs log jobs' log', (hashAllT (a := a) reqs).run = .ok (jobs, log) ∧ (hashAllT (a := a) reqs').run = .ok (jobs', log') ∧
      shapes log = shapes log' := by
  obtain ⟨items, _, hl, hg, e⟩ := hashAllT_log (a := a) reqs h
  obtain ⟨items', _, hl', hg', e'⟩ := hashAllT_log (a := a) reqs' h'
  refine ⟨_, _, _, _, e, e', ?_⟩
  have hrl : reqs.length = reqs'.length := by simpa using congrArg List.length hal
  have hll : items.length = items'.length := by omega
  have hp : ∀ (i : Nat) (h1 : i < items.length) (h2 : i < items'.length), PubP items[i] items'[i] := by
    intro i h1 h2
    have r1 : i < reqs.length := by omega
    have r2 : i < reqs'.length := by omega
    obtain ⟨p, e1, hr, hi⟩ := hg i _ (List.getElem?_eq_getElem r1)
    obtain ⟨p', e2, hr', hi'⟩ := hg' i _ (List.getElem?_eq_getElem r2)
    rw [List.getElem?_eq_getElem h1] at e1
    rw [List.getElem?_eq_getElem h2] at e2
    rw [Option.some.inj e1, Option.some.inj e2]
    have hx := congrArg (fun l => l[i]?) hal
    simp only [List.getElem?_map, List.getElem?_eq_getElem r1, List.getElem?_eq_getElem r2, Option.map_some,
      Option.some.injEq, Prod.mk.injEq] at hx
    obtain ⟨x1, x2, x3, x4⟩ := hx
    exact ⟨by rw [hr.key_toNat, hr'.key_toNat, x2], by rw [hr.keyBlock, hr'.keyBlock, pad_length _ _ hr.key_le, pad_length _ _ hr'.key_le],
      by rw [hr.lastNode, hr'.lastNode, x3], by rw [hi, hi', x1], x4⟩
  exact session_shape hll hp

example : ∃ jobs log jobs' log', (hashAllT (a := .b) sampleRequests).run = .ok (jobs, log) ∧
    (hashAllT (a := .b) (sampleRequests.map fun q => (q.1, q.2.1, q.2.2.map (· + 1)))).run = .ok (jobs', log') ∧
    shapes log = shapes log' :=
  C49_hash_many (a := .b) sampleRequests _ sampleRequests_inRange (by decide +kernel) (by decide +kernel)

/-! ## C50 -/

/-- C50, AVX2. If the first job was created for AVX2, then all but fewer than `hiDegree a` (4 for BLAKE2b, 8 for BLAKE2s) of the jobs
given to `hash_many`, however many there are and whatever their lengths, are hashed with all lanes of the widest loop in use all
the time. -/
theorem C50_avx2 (jobs : List (HashManyJob a)) (h : ∀ j ∈ jobs, JobReachable j)
    (hf : ∀ j ∈ jobs.head?, j.implementation = .AVX2) :
    ∃ out log, (hashManyT jobs).run = .ok (out, log) ∧
      ∃ S : List (Fin jobs.length), S.length < hiDegree a ∧
        ∀ p ∈ log, p.length ≠ hiDegree a → ∀ i ∈ p.map Prod.fst, i ∈ S := by
  refine ⟨_, _, hashManyT_log jobs (fun j hj => (h j hj).count_ok), ?_⟩
  cases jobs with
  | nil => exact ⟨[], by cases a <;> decide, fun p hp => by cases a <;> cases hp⟩
  | cons j js =>
    have hi : hashImp (j :: js) = .AVX2 := hf j rfl
    rw [hi]
    exact Sched.run_saturated _ (fun _ => rfl) (by cases a <;> decide) (by cases a <;> decide) _

/-- C50, any SIMD. If the first job was created for AVX2 or SSE4.1, fewer than `loDegree a` (2 for BLAKE2b, 4 for BLAKE2s) of the jobs
are ever compressed alone. -/
theorem C50_simd (jobs : List (HashManyJob a)) (h : ∀ j ∈ jobs, JobReachable j)
    (hf : ∀ j ∈ jobs.head?, j.implementation ≠ .Portable) :
    ∃ out log, (hashManyT jobs).run = .ok (out, log) ∧
      ∃ S : List (Fin jobs.length), S.length < loDegree a ∧
        ∀ p ∈ log, p.length = 1 → ∀ i ∈ p.map Prod.fst, i ∈ S := by
  refine ⟨_, _, hashManyT_log jobs (fun j hj => (h j hj).count_ok), ?_⟩
  cases jobs with
  | nil => exact ⟨[], by cases a <;> decide, fun p hp => by cases a <;> cases hp⟩
  | cons j js =>
    have hi : hashImp (j :: js) ≠ .Portable := hf j rfl
    refine Sched.run_saturated_lo _ (fun _ => rfl) (by cases a <;> decide) ?_ (by cases a <;> decide) _
    generalize hashImp (j :: js) = imp at hi
    cases a <;> cases imp <;> first | decide | exact absurd rfl hi

/-- Visiting a state makes at most one call: the one for the buffer. -/
theorem updatePull_visit (s : State a) (h : s.Sane) (x : List Byte) : (updatePull s x).1.length ≤ 1 := by
  unfold updatePull State.cbpCalls
  split
  · split
    · exact Nat.zero_le _
    · rw [absorbCalls, if_pos]
      · exact Nat.le_refl _
      · rw [(State.filled_sane x h).buf]
        exact bb_le_padded a .Serial
  · exact Nat.zero_le _

theorem badPasses_eq {n : Nat} (i : Fin n) (P : Nat → Prop) [DecidablePred P] (log : List (Pass a (Fin n))) :
    (log.filter fun p => decide (P p.length ∧ i ∈ p.map Prod.fst)).length = Sched.badPasses (fun n => decide (P n)) i log := by
  rw [Sched.badPasses, List.countP_eq_length_filter]
  congr 2
  funext p
  simp

/-- C50, `update_many` with AVX2. If the first state was created for AVX2, then all but fewer than `hiDegree a` of the states
given to `update_many`, however many there are, whatever they hold and whatever is fed to them, take part in at most one pass in
which not all lanes of the widest loop are in use: the pass that empties the state's buffer. -/
theorem C50_update_many_avx2 (pairs : List (State a × List Byte)) (h : ∀ q ∈ pairs, Reachable q.1)
    (hf : ∀ q ∈ pairs.head?, q.1.implementation = .AVX2) :
    ∃ out log, (updateManyT pairs).run = .ok (out, log) ∧
      ∃ S : List (Fin pairs.length), S.length < hiDegree a ∧
        ∀ i, i ∉ S → (log.filter fun p => p.length ≠ hiDegree a ∧ i ∈ p.map Prod.fst).length ≤ 1 := by
  have hs : ∀ q ∈ pairs, q.1.Sane := fun q hq => (h q hq).sane
  refine ⟨_, _, updateManyT_log pairs hs, ?_⟩
  cases pairs with
  | nil => exact ⟨[], by cases a <;> decide, fun i => i.elim0⟩
  | cons q qs =>
    have hi : updateImp (q :: qs) = .AVX2 := hf q rfl
    rw [hi]
    obtain ⟨S, h1, h2⟩ := Sched.run_saturated_visits
      (fun i : Fin (q :: qs).length => updatePull ((q :: qs)[i]).1 ((q :: qs)[i]).2)
      (degree := implDegree a .AVX2) (hi := hiDegree a) (lo := loDegree a) (by cases a <;> decide) (by cases a <;> decide)
      (List.finRange (q :: qs).length) (List.nodup_finRange _)
    refine ⟨S, h1, fun i hi => ?_⟩
    rw [badPasses_eq i (· ≠ hiDegree a)]
    exact Nat.le_trans (h2 i hi) (updatePull_visit _ (hs _ (List.getElem_mem i.isLt)) _)

/-- C50, `update_many` with any SIMD. If the first state was created for AVX2 or SSE4.1, then all but fewer than `loDegree a` of the
states are compressed alone at most once. -/
theorem C50_update_many_simd (pairs : List (State a × List Byte)) (h : ∀ q ∈ pairs, Reachable q.1)
    (hf : ∀ q ∈ pairs.head?, q.1.implementation ≠ .Portable) :
    ∃ out log, (updateManyT pairs).run = .ok (out, log) ∧
      ∃ S : List (Fin pairs.length), S.length < loDegree a ∧
        ∀ i, i ∉ S → (log.filter fun p => p.length = 1 ∧ i ∈ p.map Prod.fst).length ≤ 1 := by
  have hs : ∀ q ∈ pairs, q.1.Sane := fun q hq => (h q hq).sane
  refine ⟨_, _, updateManyT_log pairs hs, ?_⟩
  cases pairs with
  | nil => exact ⟨[], by cases a <;> decide, fun i => i.elim0⟩
  | cons q qs =>
    have hi : updateImp (q :: qs) ≠ .Portable := hf q rfl
    obtain ⟨S, h1, h2⟩ := Sched.run_saturated_lo_visits
      (fun i : Fin (q :: qs).length => updatePull ((q :: qs)[i]).1 ((q :: qs)[i]).2)
      (degree := implDegree a (updateImp (q :: qs))) (hi := hiDegree a) (lo := loDegree a) (by cases a <;> decide)
      (by
        generalize updateImp (q :: qs) = imp at hi
        cases a <;> cases imp <;> first | decide | exact absurd rfl hi) (by cases a <;> decide)
      (List.finRange (q :: qs).length) (List.nodup_finRange _)
    refine ⟨S, h1, fun i hi => ?_⟩
    rw [badPasses_eq i (· = 1)]
    exact Nat.le_trans (h2 i hi) (updatePull_visit _ (hs _ (List.getElem_mem i.isLt)) _)

/-- Six states of an AVX2 machine: more than four, so that the claim of `C50_update_many_avx2` has content. -/
example : ∃ ss : List (State .b), ss.length = 6 ∧ (∀ s ∈ ss, Reachable s) ∧ (∀ s ∈ ss.head?, s.implementation = .AVX2) := by
  have hr : Reachable (Params.new .b .AVX2).toState :=
    ⟨true, [.create .AVX2 []], _, _, by decide +kernel, rfl, List.mem_singleton.2 rfl⟩
  refine ⟨List.replicate 6 (Params.new .b .AVX2).toState, by simp, ?_, ?_⟩
  · intro s hs
    rw [List.eq_of_mem_replicate hs]; exact hr
  · intro s hs
    have : s = (Params.new .b .AVX2).toState := by simpa using hs.symm
    rw [this]; rfl

/-- C50, limits. No pass is wider than what the implementation of the first job supports; in particular with the portable
implementation every compression runs alone. -/
theorem C50_limits (jobs : List (HashManyJob a)) (h : ∀ j ∈ jobs, JobReachable j) (imp : Platform)
    (hf : ∀ j ∈ jobs.head?, j.implementation = imp) :
    ∃ out log, (hashManyT jobs).run = .ok (out, log) ∧ ∀ p ∈ log, 1 ≤ p.length ∧ p.length ≤ implDegree a imp := by
  refine ⟨_, _, hashManyT_log jobs (fun j hj => (h j hj).count_ok), fun p hp => ?_⟩
  cases jobs with
  | nil => cases a <;> cases hp
  | cons j js =>
    have hi : hashImp (j :: js) = imp := hf j rfl
    rw [hi] at hp
    have hs := Sched.run_shaped (fun i : Fin (j :: js).length => hashPull (j :: js)[i])
      (degree := implDegree a imp) (hi := hiDegree a) (lo := loDegree a)
      (W := [1, loDegree a, hiDegree a].filter (· ≤ implDegree a imp)) (by cases a <;> cases imp <;> decide)
      (by cases a <;> cases imp <;> decide) (by cases a <;> cases imp <;> decide) _ (List.nodup_finRange _)
    obtain ⟨_, hw⟩ := hs p hp
    rw [List.mem_filter] at hw
    refine ⟨?_, by simpa using hw.2⟩
    have := hw.1
    revert this
    generalize p.length = n
    intro hn
    cases a <;> simp [loDegree, hiDegree] at hn <;> omega

/-- C50, limits of `update_many`. The same: no pass is wider than what the implementation of the first state supports. -/
theorem C50_update_many_limits (pairs : List (State a × List Byte)) (h : ∀ q ∈ pairs, Reachable q.1) (imp : Platform)
    (hf : ∀ q ∈ pairs.head?, q.1.implementation = imp) :
    ∃ out log, (updateManyT pairs).run = .ok (out, log) ∧ ∀ p ∈ log, 1 ≤ p.length ∧ p.length ≤ implDegree a imp := by
  have hs : ∀ q ∈ pairs, q.1.Sane := fun q hq => (h q hq).sane
  refine ⟨_, _, updateManyT_log pairs hs, fun p hp => ?_⟩
  cases pairs with
  | nil => cases a <;> cases hp
  | cons q qs =>
    have hi : updateImp (q :: qs) = imp := hf q rfl
    rw [hi] at hp
    have hs := Sched.run_shaped (fun i : Fin (q :: qs).length => updatePull ((q :: qs)[i]).1 ((q :: qs)[i]).2)
      (degree := implDegree a imp) (hi := hiDegree a) (lo := loDegree a)
      (W := [1, loDegree a, hiDegree a].filter (· ≤ implDegree a imp)) (by cases a <;> cases imp <;> decide)
      (by cases a <;> cases imp <;> decide) (by cases a <;> cases imp <;> decide) _ (List.nodup_finRange _)
    obtain ⟨_, hw⟩ := hs p hp
    rw [List.mem_filter] at hw
    refine ⟨?_, by simpa using hw.2⟩
    have := hw.1
    revert this
    generalize p.length = n
    intro hn
    cases a <;> simp [loDegree, hiDegree] at hn <;> omega

/-- The jobs of seven requests on an AVX2 machine: more than four, so that the claim of `C50_avx2` has content. -/
example : ∃ jobs : List (HashManyJob .b), jobs.length = 7 ∧ (∀ j ∈ jobs, JobReachable j) ∧
    (∀ j ∈ jobs.head?, j.implementation = .AVX2) := by
  obtain ⟨j, hj, _⟩ := hashManyJob_new (rep_new .b .AVX2) (List.replicate 300 5)
  have hr : JobReachable j := .new _ _ _ ⟨.AVX2, [], rfl⟩ hj
  refine ⟨List.replicate 7 j, by simp, ?_, ?_⟩
  · intro k hk
    rw [List.eq_of_mem_replicate hk]; exact hr
  · intro k hk
    have : k = j := by simpa using hk.symm
    rw [this]
    have e := newT_erase () (Params.new .b .AVX2) (List.replicate 300 5)
    rw [newT_eq (rep_new .b .AVX2), Traced.erase_ret, hj] at e
    cases e
    rfl

end Blake2
