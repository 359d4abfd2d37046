import Verif.Proofs.TraceApi
/-! # The compressions run in the course of a history -/
namespace Blake2
open Traced Spec

variable {a : Alg}

/-! ## Forgetting the logs -/

theorem execT_erase (dbg : Bool) (ss : List (State a)) (op : Op Platform) : (op.execT dbg ss).erase = op.exec dbg ss := by
  cases op with
  | update i x =>
    simp only [Op.execT, Op.exec, erase_bind, erase_lift, updateT_erase, erase_pure]
  | write i x =>
    simp only [Op.execT, Op.exec, State.write, erase_bind, erase_lift, updateT_erase, erase_pure]
    cases getState ss i with
    | error f => rfl
    | ok s =>
      simp only [bind, Except.bind]
      cases s.update x <;> rfl
  | finalize i =>
    simp only [Op.execT, Op.exec, erase_bind, erase_lift, finalizeT_erase, erase_pure]
  | updateMany jobs =>
    simp only [Op.execT, Op.exec, erase_bind, erase_lift, erase_relabel, updateManyT_erase, erase_pure]
  | create p c => exact erase_lift _
  | clone i => exact erase_lift _
  | flush i => exact erase_lift _
  | setLastNode i b => exact erase_lift _
  | count i => exact erase_lift _

theorem erase_ok {ι α : Type} {m : Traced a ι α} {x : α} (h : m.erase = .ok x) : ∃ l, m = ret x l := by
  unfold Traced.erase at h
  cases m with
  | error f => cases h
  | ok r =>
    obtain ⟨y, l⟩ := r
    cases h
    exact ⟨l, rfl⟩

theorem lift_ret {ι α : Type} {r : Res α} {x : α} {l : List (Pass a ι)} (h : (liftM r : Traced a ι α) = ret x l) : l = [] := by
  cases r with
  | error f => cases h
  | ok y => cases h; rfl

theorem execAllT_erase (dbg : Bool) (ss : List (State a)) (ops : List (Op Platform)) :
    (execAllT dbg ss ops >>= fun r => .ok (r.1, r.2.map Prod.fst)) = execAll dbg ss ops := by
  induction ops generalizing ss with
  | nil => rfl
  | cons op ops ih =>
    simp only [execAllT, execAll, ← execT_erase, Traced.erase, bind, Except.bind]
    cases e : (op.execT dbg ss : Res _) with
    | error f => rfl
    | ok r =>
      obtain ⟨⟨ss', o⟩, log⟩ := r
      simp only
      rw [← ih]
      cases execAllT dbg ss' ops with
      | error f => rfl
      | ok r => rfl

/-! ## The calls a hasher has made -/

theorem rfcCalls_dropLast (D : List Byte) (ln : Bool) :
    (rfcCalls a D ln).dropLast = leading a D (Spec.numBlocks a D.length - 1) := by
  rw [rfcCalls_eq, List.dropLast_concat]

theorem numBlocks_of {n k : Nat} (h1 : k = 0 ∨ k * a.bb < n) (h2 : n ≤ k * a.bb + a.bb) : Spec.numBlocks a n - 1 = k := by
  unfold Spec.numBlocks
  have hb := bb_pos a
  rw [bb_eq]
  rcases Nat.eq_zero_or_pos n with h0 | h0
  · subst h0
    have hk : k = 0 := by
      rcases h1 with h | h
      · exact h
      · omega
    have : (0 + a.bb - 1) / a.bb = 0 := Nat.div_eq_of_lt (by omega)
    rw [this, hk]; rfl
  · have hlt : k * a.bb < n := by
      rcases h1 with h | h
      · rw [h]; omega
      · exact h
    have : (n + a.bb - 1) / a.bb = k + 1 := by
      rw [Nat.div_eq_iff hb, Nat.add_mul, Nat.one_mul]
      omega
    rw [this]; omega

theorem State.Inv.leading_eq {h0 : Vector (Word a) 8} {D : List Byte} {k : Nat} {s : State a} (h : State.Inv h0 D k s)
    (ln : Bool) : leading a D k = (rfcCalls a D ln).dropLast := by
  have h1 := h.buflen
  have h2 := h.small
  have h3 := h.le
  rw [rfcCalls_dropLast, numBlocks_of h.pos (by omega)]

theorem HRel.upd_calls {h : Hasher} {s : State a} (r : HRel a h s) (x : List Byte) :
    (h.calls a).dropLast ++ State.updCalls s x = ((h.feed x).calls a).dropLast := by
  obtain ⟨⟨k, hk⟩, _⟩ := r
  obtain ⟨k', hk', hc⟩ := State.upd_calls hk x
  unfold Hasher.calls
  rw [keyedData_eq, keyedData_eq, ← hk.leading_eq, hc, hk'.leading_eq h.config.lastNode, List.append_assoc]
  rfl

theorem HRel.finalize_calls {h : Hasher} {s : State a} (r : HRel a h s) {ι : Type} (who : ι) :
    ∃ y cs, s.finalizeT who = ret y (solo who cs) ∧ (h.calls a).dropLast ++ cs = h.calls a := by
  obtain ⟨⟨k, hk⟩, hl, _⟩ := r
  obtain ⟨cs, h1, h2⟩ := State.finalize_calls hk who
  refine ⟨_, cs, h1, ?_⟩
  unfold Hasher.calls
  rw [keyedData_eq, ← hk.leading_eq, h2, hl]

theorem calls_setLast (h : Hasher) (b : Bool) : ((h.setLast b).calls a).dropLast = (h.calls a).dropLast := by
  unfold Hasher.calls
  rw [rfcCalls_dropLast, rfcCalls_dropLast]
  rfl

/-- A fresh hasher owes nothing: the key block, if any, is still the last block. -/
theorem calls_fresh {c : Config} (h : c.Valid a) : (({ config := c, msg := [] } : Hasher).calls a).dropLast = [] := by
  unfold Hasher.calls
  have hl := keyPart_len h
  rw [rfcCalls_dropLast, keyedData_eq, List.append_nil, numBlocks_of (k := 0) (.inl rfl), leading_zero]
  rw [Nat.zero_mul, Nat.zero_add, hl]
  split <;> omega

/-! ## Renaming the owners -/

section
variable {ι κ : Type} [DecidableEq ι] [DecidableEq κ]

def rename (f : ι → κ) (log : List (Pass a ι)) : List (Pass a κ) := log.map fun p => p.map fun c => (f c.1, c.2)

theorem callsOf_rename {f : ι → κ} (hf : ∀ i j, f i = f j → i = j) (i : ι) (log : List (Pass a ι)) :
    callsOf (f i) (rename f log) = callsOf i log := by
  unfold callsOf rename
  rw [← List.map_flatten, List.filterMap_map]
  congr 1
  funext p
  simp only [Function.comp]
  by_cases h : p.1 = i
  · simp [h]
  · rw [if_neg h, if_neg (fun e => h (hf _ _ e))]

theorem callsOf_rename_other {f : ι → κ} {i : κ} (hf : ∀ j, f j ≠ i) (log : List (Pass a ι)) :
    callsOf i (rename f log) = [] := by
  unfold callsOf rename
  rw [← List.map_flatten, List.filterMap_map, List.filterMap_eq_nil_iff]
  intro p _
  simp [hf]

omit [DecidableEq ι] [DecidableEq κ] in
theorem rename_nodup {f : ι → κ} (hf : ∀ i j, f i = f j → i = j) {log : List (Pass a ι)}
    (h : ∀ p ∈ log, (p.map Prod.fst).Nodup) : ∀ p ∈ rename f log, (p.map Prod.fst).Nodup := by
  intro p hp
  obtain ⟨q, hq, rfl⟩ := List.mem_map.1 hp
  rw [List.map_map]
  have : (Prod.fst ∘ fun c : ι × Call a => (f c.1, c.2)) = f ∘ Prod.fst := rfl
  rw [this, ← List.map_map]
  exact List.pairwise_map.2 ((h q hq).imp fun hne e => hne (hf _ _ e))

end

theorem callsOf_solo_ne {ι : Type} [DecidableEq ι] {i j : ι} (h : j ≠ i) (cs : List (Call a)) :
    callsOf i (solo j cs) = [] := Sched.mine_solo_ne h cs

theorem solo_lanes {ι : Type} (i : ι) (cs : List (Call a)) : ∀ p ∈ solo i cs, p.map Prod.fst = [i] := by
  intro p hp
  obtain ⟨c, _, rfl⟩ := List.mem_map.1 hp
  rfl

/-! ## One operation -/

theorem filterMap_get {α β : Type} {f : α → Option β} {l : List α} (h : ∀ x ∈ l, (f x).isSome) (k : Nat) :
    (l.filterMap f)[k]? = l[k]?.bind f := by
  induction l generalizing k with
  | nil => rfl
  | cons x xs ih =>
    obtain ⟨y, hy⟩ := Option.isSome_iff_exists.1 (h x (by simp))
    rw [List.filterMap_cons, hy]
    cases k with
    | zero => simp [hy]
    | succ k => simpa using ih (fun z hz => h z (by simp [hz])) k

theorem filterMap_len {α β : Type} {f : α → Option β} {l : List α} (h : ∀ x ∈ l, (f x).isSome) :
    (l.filterMap f).length = l.length := by
  induction l with
  | nil => rfl
  | cons x xs ih =>
    obtain ⟨y, hy⟩ := Option.isSome_iff_exists.1 (h x (by simp))
    rw [List.filterMap_cons, hy]
    simpa using ih (fun z hz => h z (by simp [hz]))

theorem modify_same {α : Type} (l : List α) (i : Nat) (f : α → α) : (l.modify i f)[i]? = l[i]?.map f := by
  rw [List.getElem?_modify]; simp

theorem modify_other {α : Type} (l : List α) {i j : Nat} (h : i ≠ j) (f : α → α) : (l.modify i f)[j]? = l[j]? := by
  rw [List.getElem?_modify]; simp [h]

theorem feedAll_other (jobs : List (Nat × List Byte)) (hs : List Hasher) {i : Nat} (hi : i ∉ jobs.map Prod.fst) :
    (jobs.foldl (fun hs j => hs.modify j.1 (Hasher.feed j.2)) hs)[i]? = hs[i]? := by
  induction jobs generalizing hs with
  | nil => rfl
  | cons j js ih =>
    simp only [List.map_cons, List.mem_cons, not_or] at hi
    rw [List.foldl_cons, ih _ hi.2, modify_other _ (fun e => hi.1 e.symm)]

theorem feedAll_get (jobs : List (Nat × List Byte)) (hs : List Hasher) (hn : (jobs.map Prod.fst).Nodup)
    {j : Nat × List Byte} (hj : j ∈ jobs) :
    (jobs.foldl (fun hs j => hs.modify j.1 (Hasher.feed j.2)) hs)[j.1]? = hs[j.1]?.map (Hasher.feed j.2) := by
  induction jobs generalizing hs with
  | nil => cases hj
  | cons k ks ih =>
    rw [List.map_cons, List.nodup_cons] at hn
    rw [List.foldl_cons]
    by_cases hjk : j = k
    · subst hjk
      rw [feedAll_other _ _ hn.1, modify_same]
    · have hm : j ∈ ks := by simpa [hjk] using hj
      have hne : k.1 ≠ j.1 := fun e => hn.1 (by rw [e]; exact List.mem_map_of_mem hm)
      rw [ih _ hn.2 hm, modify_other _ hne]

theorem getD_get {l : List Nat} {k : Nat} (h : k < l.length) : l.getD k 0 = l[k] := by
  rw [List.getD_eq_getElem?_getD, List.getElem?_eq_getElem h, Option.getD_some]

/-- The widths a pass can have. -/
def widths (a : Alg) : List Nat := [1, loDegree a, hiDegree a]

theorem updateManyT_lanes (pairs : List (State a × List Byte)) (h : ∀ p ∈ pairs, p.1.Sane) :
    ∃ log, updateManyT pairs = ret (pairs.map fun p => State.upd p.1 p.2) log ∧
      (∀ k : Fin pairs.length, callsOf k log = State.updCalls (pairs[k]).1 (pairs[k]).2) ∧
      ∀ p ∈ log, (p.map Prod.fst).Nodup ∧ p.length ∈ widths a := by
  refine ⟨_, updateManyT_log pairs h, fun k => ?_, ?_⟩
  · rw [callsOf_eq_mine, Sched.run_mine _ _ _ _ _ (List.nodup_finRange _), if_pos (List.mem_finRange k), updatePull_calls]
  · exact Sched.run_shaped _ (by simp [widths]) (by simp [widths]) (by simp [widths]) _ (List.nodup_finRange _)

/-- What `update_many` is given. -/
def batchOf (ss : List (State a)) (jobs : List (Nat × List Byte)) : List (State a × List Byte) :=
  jobs.filterMap fun j => (ss[j.1]?).map fun s => (s, j.2)

section
variable {hs : List Hasher} {ss : List (State a)} (r : Rel (HRel a) hs ss) (jobs : List (Nat × List Byte))
  (h1 : ∀ j ∈ jobs, j.1 < hs.length)
include r h1

theorem mapM_getState : jobs.mapM (fun j => do
    let s ← getState ss j.1
    (.ok (s, j.2) : Res (State a × List Byte))) = .ok (batchOf ss jobs) := by
  unfold batchOf
  induction jobs with
  | nil => rfl
  | cons j js ih =>
    obtain ⟨s, e, e', _⟩ := r.get (h1 j (by simp))
    rw [List.mapM_cons, ih (fun j' hj' => h1 j' (by simp [hj'])), List.filterMap_cons, e']
    simp only [e, bind, Except.bind, Option.map_some]
    rfl

theorem pairs_some : ∀ j ∈ jobs, ((ss[j.1]?).map fun s => (s, j.2)).isSome := by
  intro j hj
  obtain ⟨s, _, e', hr⟩ := r.get (h1 j hj)
  rw [e']; rfl

theorem pairs_length : (batchOf ss jobs).length = jobs.length := filterMap_len (pairs_some r jobs h1)

theorem pairs_sane : ∀ p ∈ batchOf ss jobs, p.1.Sane := by
  intro p hpm
  rw [batchOf, List.mem_filterMap] at hpm
  obtain ⟨j, hj, hpj⟩ := hpm
  obtain ⟨s, _, e', hr⟩ := r.get (h1 j hj)
  rw [e'] at hpj
  simp only [Option.map_some, Option.some.injEq] at hpj
  rw [← hpj]; exact hr.sane

theorem pairs_get {k : Nat} (hk : k < jobs.length) :
    ∃ s, ss[(jobs[k]).1]? = some s ∧ (batchOf ss jobs)[k]? = some (s, (jobs[k]).2) := by
  obtain ⟨s, _, e', _⟩ := r.get (h1 _ (List.getElem_mem hk))
  refine ⟨s, e', ?_⟩
  rw [batchOf, filterMap_get (pairs_some r jobs h1), List.getElem?_eq_getElem hk, Option.bind_some, e']
  rfl

end

theorem execT_logs {hs : List Hasher} {ss : List (State a)} (r : Rel (HRel a) hs ss) (dbg : Bool) (op : Op Platform)
    (hv : op.Valid a dbg hs) :
    ∃ ss' log, op.execT dbg ss = ret (ss', op.answer a hs) log ∧ Rel (HRel a) (op.next a hs) ss' ∧ op.Logs a hs log ∧
      ∀ p ∈ log, p.length ∈ widths a := by
  obtain ⟨ss', he, hr'⟩ := exec_refines r dbg op hv
  rw [← execT_erase] at he
  obtain ⟨log, hlog⟩ := erase_ok he
  refine ⟨ss', log, hlog, hr', ?_⟩
  have hsolo : ∀ (i : Nat) (cs : List (Call a)), i < hs.length → log = solo i cs →
      (∀ p ∈ log, (p.map Prod.fst).Nodup ∧ ∀ c ∈ p, c.1 < hs.length) ∧ ∀ p ∈ log, p.length ∈ widths a := by
    intro i cs hi hl
    rw [hl]
    refine ⟨fun p hp => ?_, fun p hp => ?_⟩
    · have := solo_lanes i cs p hp
      refine ⟨by rw [this]; simp, fun c hc => ?_⟩
      have hc' : c.1 ∈ p.map Prod.fst := List.mem_map_of_mem hc
      rw [this] at hc'
      simp only [List.mem_singleton] at hc'
      omega
    · have := congrArg List.length (solo_lanes i cs p hp)
      rw [List.length_map] at this
      rw [this]; simp [widths]
  have hnone : log = [] → (∀ (i : Nat) (h h' : Hasher), hs[i]? = some h → (op.next a hs)[i]? = some h' →
      (h.calls a).dropLast = (h'.calls a).dropLast) → (∀ j, op ≠ .finalize j) →
      op.Logs a hs log ∧ ∀ p ∈ log, p.length ∈ widths a := by
    intro h0 h1 h2
    subst h0
    refine ⟨⟨fun i h h' e e' => ?_, by simp⟩, by simp⟩
    have := h1 i h h' e e'
    have hnil : callsOf i ([] : List (Pass a Nat)) = [] := rfl
    rw [hnil, List.append_nil, this]
    cases op <;> first | rfl | exact absurd rfl (h2 _)
  have hsame : ∀ {i : Nat} {h h' : Hasher} {l : List Hasher}, hs[i]? = some h → (hs ++ l)[i]? = some h' →
      (h.calls a).dropLast = (h'.calls a).dropLast := by
    intro i h h' l e e'
    obtain ⟨hi, _⟩ := List.getElem?_eq_some_iff.1 e
    rw [List.getElem?_append_left hi, e] at e'
    cases e'; rfl
  have hupd : ∀ (i : Nat) (x : List Byte) (s : State a), i < hs.length → ss[i]? = some s →
      log = solo i (State.updCalls s x) →
      (∀ (k : Nat) (h h' : Hasher), hs[k]? = some h → (hs.modify i (Hasher.feed x))[k]? = some h' →
        (h.calls a).dropLast ++ callsOf k log = (h'.calls a).dropLast) := by
    intro i x s hi hs' hl k h h' e e'
    obtain ⟨hk, ek⟩ := List.getElem?_eq_some_iff.1 e
    by_cases hik : i = k
    · subst hik
      rw [modify_same, e] at e'
      simp only [Option.map_some, Option.some.injEq] at e'
      obtain ⟨s2, _, e2, hr⟩ := r.get hi
      rw [hs'] at e2
      cases e2
      rw [ek] at hr
      rw [hl, callsOf_solo, hr.upd_calls, e']
    · rw [modify_other _ hik, e] at e'
      cases e'
      rw [hl, callsOf_solo_ne hik, List.append_nil]
  cases op with
  | create plat calls => exact hnone (lift_ret hlog) (fun i h h' e e' => hsame e e') (fun j => nofun)
  | clone i => exact hnone (lift_ret hlog) (fun i h h' e e' => hsame e e') (fun j => nofun)
  | flush i =>
    exact hnone (lift_ret hlog) (fun i h h' e e' => by rw [show (Op.flush _ : Op Platform).next a hs = hs from rfl, e] at e'; cases e'; rfl) (fun j => nofun)
  | count i =>
    exact hnone (lift_ret hlog) (fun i h h' e e' => by rw [show (Op.count _ : Op Platform).next a hs = hs from rfl, e] at e'; cases e'; rfl) (fun j => nofun)
  | setLastNode i b =>
    refine hnone (lift_ret hlog) (fun k h h' e e' => ?_) (fun j => nofun)
    rw [Op.next] at e'
    by_cases hik : i = k
    · subst hik
      rw [modify_same, e] at e'
      cases e'; rw [calls_setLast]
    · rw [modify_other _ hik, e] at e'
      cases e'; rfl
  | update i x =>
    obtain ⟨s, e, e', hr⟩ := r.get hv
    have : Op.execT dbg ss (.update i x) = ret (ss.set i (State.upd s x), .done) (solo i (State.updCalls s x)) := by
      rw [Op.execT, lift_bind e, bind_ret (State.updateT_eq i s x hr.sane) (l' := []) rfl, List.append_nil]
    rw [this] at hlog
    obtain ⟨_, hl⟩ := ret_inj hlog
    obtain ⟨h1, h2⟩ := hsolo i _ hv hl.symm
    exact ⟨⟨hupd i x s hv e' hl.symm, h1⟩, h2⟩
  | write i x =>
    obtain ⟨s, e, e', hr⟩ := r.get hv
    have : Op.execT dbg ss (.write i x) = ret (ss.set i (State.upd s x), .written x.length) (solo i (State.updCalls s x)) := by
      rw [Op.execT, lift_bind e, bind_ret (State.updateT_eq i s x hr.sane) (l' := []) rfl, List.append_nil]
    rw [this] at hlog
    obtain ⟨_, hl⟩ := ret_inj hlog
    obtain ⟨h1, h2⟩ := hsolo i _ hv hl.symm
    exact ⟨⟨hupd i x s hv e' hl.symm, h1⟩, h2⟩
  | finalize i =>
    have hv' : i < hs.length := hv
    obtain ⟨s, e, e', hr⟩ := r.get hv'
    obtain ⟨y, cs, hf, hcs⟩ := hr.finalize_calls i
    have hy := finalizeT_erase i s
    rw [hf, erase_ret, hr.finalize] at hy
    cases hy
    have : Op.execT dbg ss (.finalize i) = ret (ss, .digest (Spec.hash a hs[i].config hs[i].msg)) (solo i cs) := by
      rw [Op.execT, lift_bind e, bind_ret hf (l' := []) (lift_bind (asBytes_config hr.2.2.2.2 _)), List.append_nil]
    rw [this] at hlog
    obtain ⟨_, hl⟩ := ret_inj hlog
    obtain ⟨h1, h2⟩ := hsolo i _ hv hl.symm
    refine ⟨⟨fun k h h' ek _ => ?_, h1⟩, h2⟩
    rw [← hl]
    simp only
    by_cases hik : i = k
    · subst hik
      obtain ⟨_, ek'⟩ := List.getElem?_eq_some_iff.1 ek
      rw [callsOf_solo, if_pos rfl, ← ek', hcs]
    · rw [if_neg hik, callsOf_solo_ne hik, List.append_nil]
  | updateMany jobs =>
    obtain ⟨h1, h2⟩ := hv
    obtain ⟨pairs, hp⟩ : ∃ pairs, pairs = batchOf ss jobs := ⟨_, rfl⟩
    have hlen : pairs.length = jobs.length := by rw [hp, pairs_length r jobs h1]
    have hsane : ∀ p ∈ pairs, p.1.Sane := hp ▸ pairs_sane r jobs h1
    obtain ⟨lg, e1, e2, e3⟩ := updateManyT_lanes pairs hsane
    have hf : ∀ k : Fin pairs.length, (jobs.map Prod.fst).getD k.val 0 = (jobs[k.val]'(hlen ▸ k.2)).1 := by
      intro k
      have := k.2
      rw [getD_get (by rw [List.length_map]; omega), List.getElem_map]
    have hinj : ∀ i j : Fin pairs.length, (jobs.map Prod.fst).getD i.val 0 = (jobs.map Prod.fst).getD j.val 0 → i = j := by
      intro i j e
      have hi := i.2
      have hj := j.2
      rw [getD_get (by rw [List.length_map]; omega), getD_get (by rw [List.length_map]; omega)] at e
      exact Fin.ext ((List.getElem_inj h2).1 e)
    have hl : log = rename (fun k : Fin pairs.length => (jobs.map Prod.fst).getD k.val 0) lg := by
      have : Op.execT dbg ss (.updateMany jobs) = ret
          ((jobs.zip (pairs.map fun p => State.upd p.1 p.2)).foldl (fun ss p => ss.set p.1.1 p.2) ss, .done)
          (rename (fun k : Fin pairs.length => (jobs.map Prod.fst).getD k.val 0) lg) := by
        rw [Op.execT, lift_bind ((mapM_getState r jobs h1).trans (congrArg _ hp.symm)), e1]
        rw [relabel_ret]
        refine (bind_ret (l' := []) rfl rfl).trans ?_
        rw [List.append_nil]; rfl
      rw [this] at hlog
      exact (ret_inj hlog).2.symm
    have hjob : ∀ k : Fin pairs.length, ∃ s, ss[(jobs[k.val]'(hlen ▸ k.2)).1]? = some s ∧
        pairs[k] = (s, (jobs[k.val]'(hlen ▸ k.2)).2) := by
      intro k
      obtain ⟨s, es, ep⟩ := pairs_get r jobs h1 (k := k.val) (by rw [← hlen]; exact k.2)
      refine ⟨s, es, ?_⟩
      rw [← hp, List.getElem?_eq_getElem k.2] at ep
      exact Option.some.inj ep
    refine ⟨⟨fun i h h' ei ei' => ?_, fun p hp' => ⟨?_, ?_⟩⟩, fun p hp' => ?_⟩
    · simp only [Op.next] at ei'
      rw [hl]
      by_cases hmem : i ∈ jobs.map Prod.fst
      · obtain ⟨j, hj, rfl⟩ := List.mem_map.1 hmem
        rw [feedAll_get jobs hs h2 hj, ei] at ei'
        simp only [Option.map_some, Option.some.injEq] at ei'
        obtain ⟨k, hk, rfl⟩ := List.getElem_of_mem hj
        have hk' : k < pairs.length := by omega
        have hlt := h1 _ hj
        obtain ⟨s, es, ep⟩ := hjob ⟨k, hk'⟩
        obtain ⟨s2, _, es2, hr⟩ := r.get hlt
        rw [es2] at es
        cases es
        have eh : hs[(jobs[k]).1] = h := by
          rw [List.getElem?_eq_getElem hlt] at ei
          exact Option.some.inj ei
        rw [eh] at hr
        have hfk := hf ⟨k, hk'⟩
        simp only at hfk
        have hc := callsOf_rename hinj ⟨k, hk'⟩ lg
        simp only [hfk] at hc
        rw [hc, e2, ep]
        simp only
        rw [hr.upd_calls, ei']
      · rw [feedAll_other jobs hs hmem, ei] at ei'
        cases ei'
        rw [callsOf_rename_other, List.append_nil]
        intro k e
        exact hmem (by rw [← e, hf k]; exact List.mem_map_of_mem (List.getElem_mem _))
    · rw [hl] at hp'
      exact rename_nodup hinj (fun q hq => (e3 q hq).1) p hp'
    · rw [hl] at hp'
      obtain ⟨q, hq, rfl⟩ := List.mem_map.1 hp'
      intro c hc
      obtain ⟨d, _, rfl⟩ := List.mem_map.1 hc
      simp only
      rw [hf d.1]
      exact h1 _ (List.getElem_mem _)
    · rw [hl] at hp'
      obtain ⟨q, hq, rfl⟩ := List.mem_map.1 hp'
      rw [List.length_map]
      exact (e3 q hq).2

theorem execAllT_logs {hs : List Hasher} {ss : List (State a)} (r : Rel (HRel a) hs ss) (dbg : Bool) (ops : List (Op Platform))
    (hv : ValidHistory a dbg hs ops) :
    ∃ ss' logs, execAllT dbg ss ops = .ok (ss', (answers a hs ops).zip logs) ∧ Rel (HRel a) (history a hs ops) ss' ∧
      LogsHistory a hs ops logs ∧ ∀ log ∈ logs, ∀ p ∈ log, p.length ∈ widths a := by
  induction ops generalizing hs ss with
  | nil => exact ⟨ss, [], rfl, r, trivial, by simp⟩
  | cons op ops ih =>
    obtain ⟨s1, log, e1, r1, l1, w1⟩ := execT_logs r dbg op hv.1
    obtain ⟨s2, logs, e2, r2, l2, w2⟩ := ih r1 hv.2
    refine ⟨s2, log :: logs, ?_, r2, ⟨l1, l2⟩, ?_⟩
    · simp only [execAllT, e1, Traced.ret, e2, bind, Except.bind, answers, List.zip_cons_cons]
    · intro lg hlg
      rcases List.mem_cons.1 hlg with rfl | h
      · exact w1
      · exact w2 lg h

end Blake2
