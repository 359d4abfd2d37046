import Verif.Proofs.TraceParShape
import Verif.Properties.Trace
import Verif.Properties.Tree
/-!
# Which compressions the tree variants run: C48, C49 and C50 for BLAKE2bp and BLAKE2sp

The leaves and the root of the tree are the owners of the calls (`Node`): `some i` is leaf `i`, `none` the root.
-/
namespace Blake2
open Spec

variable {a : Alg}

/-- Forgetting the logs of an instrumented history of tree states gives the history the other theorems are about. (For the single
functions see `C48_ghost`.) -/
theorem C48_tree_ghost (dbg : Bool) (ss : List (PState a)) (ops : List (POp Platform)) :
    (pexecAllT dbg ss ops).map (fun r => (r.1, r.2.map Prod.fst)) = pexecAll dbg ss ops :=
  pexecAllT_erase dbg ss ops

/-- C48, one-shot hashing with a tree. Every leaf is compressed exactly as prescribed for its share of the message, and the root
exactly as prescribed for the outputs of the leaves; no pass serves a leaf twice. -/
theorem C48_tree_hash (plat : Platform) (calls : List PSetter) (p : PParams a) (hb : (PParams.new a plat).build calls = .ok p)
    (x : List Byte) :
    ∃ h log, (p.hashT x).run = .ok (h, log) ∧
      (∀ node, callsOf node log = ({ config := pconfigOf a calls, msg := x } : PHasher).calls a node) ∧
      ∀ q ∈ log, (q.map Prod.fst).Nodup ∧ q.length ∈ [1, loDegree a, hiDegree a] := by
  obtain ⟨r, _⟩ := pbuilt_rep hb
  obtain ⟨h, e⟩ := phashT_eq r x
  exact ⟨h, _, e, phashLog_calls r x, phashLog_lanes _ _ _⟩

/-- Nine bytes more than one stripe: leaf 0 has two blocks, the other leaves one. -/
example : ∃ p, (PParams.new .b .AVX2).build [.hashLength 20] = .ok p ∧
    ∃ h log, (p.hashT (List.replicate 521 7)).run = .ok (h, log) ∧ (callsOf (some ⟨0, by decide⟩) log).length = 2 ∧
      (callsOf (some ⟨3, by decide⟩) log).length = 1 ∧ (callsOf none log).length = 2 := by
  obtain ⟨p, hp⟩ := pbuild_ok (a := .b) .AVX2 [.hashLength 20] (by decide)
  obtain ⟨h, log, e, hl, _⟩ := C48_tree_hash _ _ p hp (List.replicate 521 7)
  refine ⟨p, hp, h, log, e, ?_, ?_, ?_⟩
  · rw [hl]; decide +kernel
  · rw [hl]; decide +kernel
  · rw [hl]
    unfold PHasher.calls
    rw [rfcCalls_length, root_length { config := pconfigOf .b [.hashLength 20], msg := List.replicate 521 7 }]
    decide +kernel

/-- C48, incremental hashing with trees. In any history of operations on any number of tree hashers, every operation runs
exactly the compressions that are due: see `POp.Logs`. -/
theorem C48_tree_histories (dbg : Bool) (ops : List (POp Platform)) (hv : ValidPHistory a dbg [] ops) :
    ∃ ss logs, pexecAllT dbg ([] : List (PState a)) ops = .ok (ss, (panswers a [] ops).zip logs) ∧
      LogsPHistory a [] [] ops logs ∧ ∀ log ∈ logs, ∀ p ∈ log, p.length ∈ [1, loDegree a, hiDegree a] := by
  obtain ⟨⟨ss, e⟩, h, w⟩ := pexecAllT_plan (a := a) (ls := []) (ss := []) rel_nil dbg ops hv
  exact ⟨ss, _, e, h, w⟩

example : ∃ ss logs, pexecAllT true ([] : List (PState .b)) samplePHistory = .ok (ss, (panswers .b [] samplePHistory).zip logs) ∧
    LogsPHistory .b [] [] samplePHistory logs :=
  let ⟨ss, logs, h1, h2, _⟩ := C48_tree_histories (a := .b) true _ samplePHistory_valid
  ⟨ss, logs, h1, h2⟩

/-- C49, one-shot hashing with a tree. -/
theorem C49_tree_hash (plat : Platform) (calls calls' : List PSetter) (p p' : PParams a)
    (hb : (PParams.new a plat).build calls = .ok p) (hb' : (PParams.new a plat).build calls' = .ok p') (x x' : List Byte)
    (hk : (pconfigOf a calls).key.length = (pconfigOf a calls').key.length) (hx : x.length = x'.length) :
    ∃ h log h' log', (p.hashT x).run = .ok (h, log) ∧ (p'.hashT x').run = .ok (h', log') ∧ shapes log = shapes log' := by
  obtain ⟨r, hi⟩ := pbuilt_rep hb
  obtain ⟨r', hi'⟩ := pbuilt_rep hb'
  obtain ⟨h, e⟩ := phashT_eq r x
  obtain ⟨h', e'⟩ := phashT_eq r' x'
  refine ⟨h, _, h', _, e, e', ?_⟩
  rw [hi, hi']
  exact phashLog_shape plat r.keyLe r'.keyLe hk hx

example : ∃ p p', (PParams.new .s .SSE41).build [.key [1, 2, 3]] = .ok p ∧
    (PParams.new .s .SSE41).build [.key [4, 5, 6], .hashLength 9] = .ok p' ∧
    ∃ h log h' log', (p.hashT (List.replicate 3000 7)).run = .ok (h, log) ∧
      (p'.hashT (List.replicate 3000 8)).run = .ok (h', log') ∧ shapes log = shapes log' := by
  obtain ⟨p, hp⟩ := pbuild_ok (a := .s) .SSE41 [.key [1, 2, 3]] (by decide)
  obtain ⟨p', hp'⟩ := pbuild_ok (a := .s) .SSE41 [.key [4, 5, 6], .hashLength 9] (by decide)
  exact ⟨p, p', hp, hp', C49_tree_hash _ _ _ p p' hp hp' _ _ rfl (List.length_replicate.trans List.length_replicate.symm)⟩

/-- C49, incremental hashing with trees. -/
theorem C49_tree_histories (dbg : Bool) (ops ops' : List (POp Platform)) (hal : AlikePHistory a ops ops')
    (hv : ValidPHistory a dbg [] ops) (hv' : ValidPHistory a dbg [] ops') :
    ∃ ss out ss' out', pexecAllT dbg ([] : List (PState a)) ops = .ok (ss, out) ∧
      pexecAllT dbg ([] : List (PState a)) ops' = .ok (ss', out') ∧
      out.map (fun o => shapes o.2) = out'.map (fun o => shapes o.2) := by
  obtain ⟨⟨ss, e⟩, _⟩ := pexecAllT_plan (a := a) (ls := []) (ss := []) rel_nil dbg ops hv
  obtain ⟨⟨ss', e'⟩, _⟩ := pexecAllT_plan (a := a) (ls := []) (ss := []) rel_nil dbg ops' hv'
  refine ⟨ss, _, ss', _, e, e', ?_⟩
  have h := planAll_shape (a := a) (ls := []) (ls' := []) (ss := []) (ss' := []) rel_nil rel_nil rfl hal hv hv'
  have key : ∀ (os : List Obs) (logs : List (List (Pass a (Nat × Node a)))), os.length = logs.length →
      (os.zip logs).map (fun o => shapes o.2) = logs.map shapes := by
    intro os logs hl
    conv => rhs; rw [← List.map_snd_zip (l₁ := os) (Nat.le_of_eq hl.symm)]
    rw [List.map_map]; rfl
  rw [key _ _ (by rw [panswers_length, planAll_length]), key _ _ (by rw [panswers_length, planAll_length]), h]

/-- The sample history with other data. -/
def samplePHistory' : List (POp Platform) :=
  [.create .AVX2 [.key [1, 4]], .create .Portable [.hashLength 30], .update 0 [7, 8, 9], .clone 0, .finalize 0,
   .update 2 (List.replicate 500 3), .write 0 (List.replicate 600 4), .flush 1, .write 1 [6],
   .finalize 0, .finalize 1, .count 2]

example : ∃ ss out ss' out', pexecAllT true ([] : List (PState .b)) samplePHistory = .ok (ss, out) ∧
    pexecAllT true ([] : List (PState .b)) samplePHistory' = .ok (ss', out') ∧
    out.map (fun o => shapes o.2) = out'.map (fun o => shapes o.2) := by
  refine C49_tree_histories (a := .b) true _ _ ?_ samplePHistory_valid (by decide +kernel)
  simp only [samplePHistory, samplePHistory', AlikePHistory, POp.Alike]
  decide +kernel

/-- The shares of the leaves differ by at most one block. -/
theorem leaf_calls_balanced {h : PHasher} (hk : h.config.key.length ≤ maxOut a) :
    ∃ n, ∀ i : Fin (parDegree a), n ≤ (h.calls a (some i)).length ∧ (h.calls a (some i)).length ≤ n + 1 := by
  have hs := stripe_pos a
  obtain ⟨D, hD⟩ : ∃ D, D = keyStripe a h.config.key ++ h.msg := ⟨_, rfl⟩
  have e := Nat.div_add_mod D.length (stripe a)
  have hm := Nat.mod_lt D.length hs
  rw [Nat.mul_comm] at e
  refine ⟨D.length / stripe a, fun i => ?_⟩
  rw [calls_leaf hk, rfcCalls_length, ← hD]
  generalize D.length / stripe a = m at *
  have h1 := leaf_length (a := a) i.isLt D m (by omega)
  have h2 := leaf_length_bound (a := a) i.val D (m + 1) (by rw [Nat.add_mul, Nat.one_mul]; omega)
  refine ⟨?_, numBlocks_le _ _ (Nat.succ_pos m) h2⟩
  cases m with
  | zero => exact Nat.zero_le _
  | succ m =>
    apply numBlocks_gt
    right
    have : 0 < a.bb := by cases a <;> decide
    rw [Nat.add_mul, Nat.one_mul] at h1
    omega

theorem finLog_narrow {h : PHasher} (hk : h.config.key.length ≤ maxOut a) (done : Nat) (i : Fin (parDegree a)) :
    (((Ledger.mk h done .AVX2).finLog a).filter fun q => q.length ≠ hiDegree a ∧ some i ∈ q.map Prod.fst).length ≤ 1 := by
  obtain ⟨n, hn⟩ := leaf_calls_balanced hk
  have hb := Sched.run_balanced (N := parDegree a) (degree := implDegree a .AVX2) (lo := loDegree a) (by cases a <;> decide)
    (by cases a <;> decide) (fun i => (h.calls a (some i)).drop done) (n - done) (fun i => by
      have := hn i
      rw [List.length_drop]; omega) i
  rw [Ledger.finLog, List.filter_append, List.length_append]
  have hroot : (solo none (h.calls a none)).filter (fun q => q.length ≠ hiDegree a ∧ some i ∈ q.map Prod.fst) = [] := by
    rw [List.filter_eq_nil_iff]
    intro q hq
    obtain ⟨c, _, rfl⟩ := List.mem_map.1 hq
    simp
  rw [hroot, List.length_nil, Nat.add_zero]
  have hhi : hiDegree a = parDegree a := by cases a <;> rfl
  unfold batchLog rename
  rw [List.filter_map, List.length_map, hhi]
  refine Nat.le_trans (Nat.le_of_eq ?_) hb
  rw [Sched.badPasses, List.countP_eq_length_filter]
  congr 2
  funext q
  have e : (some i ∈ (q.map fun c => (some c.1, c.2)).map Prod.fst) ↔ i ∈ q.map (·.1) := by
    rw [List.map_map]
    simp [Function.comp_def]
  simp [Function.comp_def, decide_eq_decide.2 e]

/-- C50, one-shot hashing with a tree. With AVX2 every leaf of BLAKE2bp and BLAKE2sp takes part in at most one pass in which not all
leaves are compressed at once, however long the input is. -/
theorem C50_tree_hash (calls : List PSetter) (p : PParams a) (hb : (PParams.new a .AVX2).build calls = .ok p) (x : List Byte) :
    ∃ h log, (p.hashT x).run = .ok (h, log) ∧
      ∀ i : Fin (parDegree a), (log.filter fun q => q.length ≠ hiDegree a ∧ some i ∈ q.map Prod.fst).length ≤ 1 := by
  obtain ⟨r, hi⟩ := pbuilt_rep hb
  obtain ⟨h, e⟩ := phashT_eq r x
  refine ⟨h, _, e, fun i => ?_⟩
  rw [hi, phashLog]
  split
  · exact finLog_narrow r.keyLe 0 i
  · rw [List.filter_append, List.length_append]
    have hu : (Ledger.updLog a x (Ledger.mk { config := pconfigOf a calls, msg := [] } 0 .AVX2)).filter
        (fun q => q.length ≠ hiDegree a ∧ some i ∈ q.map Prod.fst) = [] := by
      rw [List.filter_eq_nil_iff]
      intro q hq
      have := updLog_even _ _ q hq
      have e2 : implDegree a .AVX2 = hiDegree a := by cases a <;> rfl
      rw [e2] at this
      simp [this]
    have hf := finLog_narrow (h := { config := pconfigOf a calls, msg := [] ++ x }) r.keyLe
      (Ledger.feed a x (Ledger.mk { config := pconfigOf a calls, msg := [] } 0 .AVX2)).done i
    rw [show (pconfigOf a calls) = { hashLength := (pconfigOf a calls).hashLength, key := (pconfigOf a calls).key } from rfl] at hu
    rw [hu, List.length_nil, Nat.zero_add]
    exact hf

example : ∃ p, (PParams.new .b .AVX2).build [.key [1], .hashLength 20] = .ok p := pbuild_ok .AVX2 _ (by decide)

/-- C50, trees. An update of a BLAKE2bp or BLAKE2sp state, in whatever pieces the message comes, never runs a pass narrower than
what the implementation of the state supports: with AVX2 all leaves are compressed at once. -/
theorem C50_tree_update (s : PState a) (h : PReachable s) (x : List Byte) :
    ∃ s' log, (s.updateT x).run = .ok (s', log) ∧ ∀ p ∈ log, p.length = implDegree a s.implementation := by
  obtain ⟨l, r⟩ := h.ledger
  obtain ⟨s', e, _⟩ := r.update x
  refine ⟨s', _, e, ?_⟩
  rw [r.plat]
  exact updLog_even l x

example : ∃ ss, pexecAll true ([] : List (PState .b)) samplePHistory = .ok (ss, panswers .b [] samplePHistory) ∧ ss.length = 3 ∧
    ∀ s ∈ ss, ∃ s' log, (s.updateT (List.replicate 5000 1)).run = .ok (s', log) ∧ log ≠ [] ∧
      ∀ p ∈ log, p.length = implDegree .b s.implementation := by
  obtain ⟨ss, e, r⟩ := pexecAll_refines (a := .b) rel_nil true samplePHistory samplePHistory_valid
  have hl : ss.length = 3 := r.1.trans (by decide +kernel)
  refine ⟨ss, e, hl, fun s hs => ?_⟩
  have hr : PReachable s := ⟨true, _, ss, _, samplePHistory_valid, e, hs⟩
  obtain ⟨l, q⟩ := hr.ledger
  obtain ⟨s', log, h1, h2⟩ := C50_tree_update s hr (List.replicate 5000 1)
  refine ⟨s', log, h1, ?_, h2⟩
  rintro rfl
  -- the update made calls, since the ledger says it had to
  obtain ⟨s2, e2, q2⟩ := q.update (List.replicate 5000 1)
  rw [e2] at h1
  have hlog : l.updLog .b (List.replicate 5000 1) = [] := congrArg (fun r : Res _ => match r with
    | .ok v => v.2
    | .error _ => []) h1
  have hu := congrArg List.length (q.upd_leaf (List.replicate 5000 1) ⟨0, by decide⟩)
  rw [hlog] at hu
  have w := q.within ⟨0, by decide⟩
  have w2 := q2.within ⟨0, by decide⟩
  rw [show callsOf (some ⟨0, by decide⟩) ([] : List (Pass .b (Node .b))) = [] from rfl, List.append_nil, List.length_take, List.length_take] at hu
  have hsm := q.inv.small
  have hsm2 := q2.inv.small
  have hd : (Ledger.feed .b (List.replicate 5000 1) l).data .b = l.data .b ++ List.replicate 5000 1 := (List.append_assoc ..).symm
  rw [q.inv.bufLen] at hsm
  rw [q2.inv.bufLen, hd, List.length_append, List.length_replicate] at hsm2
  have e3 : (Ledger.feed .b (List.replicate 5000 1) l).done = l.done := by omega
  rw [e3] at hsm2
  have hle := q.inv.le
  have : stripe .b = 512 := rfl
  omega

end Blake2
