import Verif.Proofs.TracePar
/-! # The compressions in histories of tree states -/
namespace Blake2
open Spec Traced

variable {a : Alg}

/-! ## Erasure -/

theorem pexecT_erase (dbg : Bool) (ss : List (PState a)) (op : POp Platform) : (op.execT dbg ss).erase = op.exec dbg ss := by
  cases op with
  | update i x =>
    simp only [POp.execT, POp.exec, erase_bind, erase_lift, erase_relabel, pstate_updateT_erase, erase_pure]
  | write i x =>
    simp only [POp.execT, POp.exec, PState.write, erase_bind, erase_lift, erase_relabel, pstate_updateT_erase, erase_pure]
    cases getState ss i with
    | error f => rfl
    | ok s =>
      simp only [bind, Except.bind]
      cases s.update x <;> rfl
  | finalize i =>
    simp only [POp.execT, POp.exec, erase_bind, erase_lift, erase_relabel, pstate_finalizeT_erase, erase_pure]
  | create p c => exact erase_lift _
  | clone i => exact erase_lift _
  | flush i => exact erase_lift _
  | count i => exact erase_lift _

theorem pexecAllT_erase (dbg : Bool) (ss : List (PState a)) (ops : List (POp Platform)) :
    (pexecAllT dbg ss ops).map (fun r => (r.1, r.2.map Prod.fst)) = pexecAll dbg ss ops := by
  induction ops generalizing ss with
  | nil => rfl
  | cons op ops ih =>
    simp only [pexecAllT, pexecAll, ← pexecT_erase, Traced.erase, bind, Except.bind]
    cases e : (op.execT dbg ss : Res _) with
    | error f => rfl
    | ok r =>
      obtain ⟨⟨ss', o⟩, log⟩ := r
      simp only
      rw [← ih]
      cases pexecAllT dbg ss' ops with
      | error f => rfl
      | ok r => rfl

/-! ## What is logged -/

/-- The ledgers after an operation. -/
def POp.nextL (a : Alg) (ls : List Ledger) : POp Platform → List Ledger
  | .create plat calls => ls ++ [⟨{ config := pconfigOf a calls, msg := [] }, 0, plat⟩]
  | .clone i => ls ++ ls[i]?.toList
  | .update i x => ls.modify i (Ledger.feed a x)
  | .write i x => ls.modify i (Ledger.feed a x)
  | _ => ls

/-- What an operation logs. -/
def POp.plan (a : Alg) (ls : List Ledger) : POp Platform → List (Pass a (Nat × Node a))
  | .update i x => ls[i]?.toList.flatMap fun l => rename (fun n => (i, n)) (l.updLog a x)
  | .write i x => ls[i]?.toList.flatMap fun l => rename (fun n => (i, n)) (l.updLog a x)
  | .finalize i => ls[i]?.toList.flatMap fun l => rename (fun n => (i, n)) (l.finLog a)
  | _ => []

theorem map_modify {α β : Type} (f : α → β) (g : α → α) (g' : β → β) (h : ∀ x, f (g x) = g' (f x)) (l : List α) (i : Nat) :
    (l.modify i g).map f = (l.map f).modify i g' := by
  apply List.ext_getElem?
  intro j
  simp only [List.getElem?_map, List.getElem?_modify]
  split <;> cases l[j]? <;> simp [h]

theorem nextL_hashers (ls : List Ledger) (op : POp Platform) :
    (POp.nextL a ls op).map Ledger.hasher = op.next a (ls.map Ledger.hasher) := by
  cases op with
  | create plat calls => simp [POp.nextL, POp.next]
  | clone i =>
    simp only [POp.nextL, POp.next, List.map_append, List.getElem?_map]
    cases ls[i]? <;> rfl
  | update i x => exact map_modify Ledger.hasher (Ledger.feed a x) (PHasher.feed x) (fun _ => rfl) _ _
  | write i x => exact map_modify Ledger.hasher (Ledger.feed a x) (PHasher.feed x) (fun _ => rfl) _ _
  | flush i => rfl
  | finalize i => rfl
  | count i => rfl

theorem Rel.forget {ls : List Ledger} {ss : List (PState a)} (r : Rel (LRel a) ls ss) :
    Rel (PHRel a) (ls.map Ledger.hasher) ss := by
  refine ⟨by rw [List.length_map]; exact r.1, fun i h h' => ?_⟩
  rw [List.getElem_map]
  exact (r.2 i (by simpa using h) h').rel

theorem pexecT_plan {ls : List Ledger} {ss : List (PState a)} (r : Rel (LRel a) ls ss) (dbg : Bool) (op : POp Platform)
    (hv : op.Valid a dbg (ls.map Ledger.hasher)) :
    ∃ ss', op.execT dbg ss = ret (ss', op.answer a (ls.map Ledger.hasher)) (POp.plan a ls op) ∧
      Rel (LRel a) (POp.nextL a ls op) ss' := by
  have hget : ∀ {i : Nat}, i < (ls.map Ledger.hasher).length → i < ls.length := fun h => by simpa using h
  have hlift : ∀ {op : POp Platform} {ss'}, op.exec dbg ss = .ok (ss', op.answer a (ls.map Ledger.hasher)) →
      (liftM (op.exec dbg ss) : Traced a (Nat × Node a) _) = ret (ss', op.answer a (ls.map Ledger.hasher)) [] :=
    fun h => lift_ok h
  cases op with
  | create plat calls =>
    obtain ⟨p, e, hr, hp⟩ := prep_build (c := PConfig.default a) (prep_new a plat) calls hv
    obtain ⟨s, e', hs'⟩ := LRel.create hr
    rw [show p.implementation = plat from hp] at hs'
    refine ⟨ss ++ [s], hlift ?_, r.append hs'⟩
    simp only [POp.exec, e, e', bind, Except.bind, POp.answer]
  | clone i =>
    have hv' : i < ls.length := hget hv
    obtain ⟨s, e, _, hr⟩ := r.get hv'
    refine ⟨ss ++ [s], hlift ?_, ?_⟩
    · simp only [POp.exec, e, bind, Except.bind, POp.answer]
    · simp only [POp.nextL]
      rw [List.getElem?_eq_getElem hv']
      exact r.append hr
  | update i x =>
    have hv' : i < ls.length := hget hv
    obtain ⟨s, e, _, hr⟩ := r.get hv'
    obtain ⟨s', e', hr'⟩ := hr.update x
    refine ⟨ss.set i s', ?_, r.modify hv' _ hr'⟩
    have e'' : (s.updateT x).relabel (fun n => (i, n)) = ret s' (rename (fun n => (i, n)) (ls[i].updLog a x)) := by
      rw [e']; rfl
    rw [POp.execT, lift_bind e, bind_ret e'' (l' := []) rfl, List.append_nil]
    simp only [POp.plan, List.getElem?_eq_getElem hv', Option.toList_some, List.flatMap_cons, List.flatMap_nil, List.append_nil]
    rfl
  | write i x =>
    have hv' : i < ls.length := hget hv
    obtain ⟨s, e, _, hr⟩ := r.get hv'
    obtain ⟨s', e', hr'⟩ := hr.update x
    refine ⟨ss.set i s', ?_, r.modify hv' _ hr'⟩
    have e'' : (s.updateT x).relabel (fun n => (i, n)) = ret s' (rename (fun n => (i, n)) (ls[i].updLog a x)) := by
      rw [e']; rfl
    rw [POp.execT, lift_bind e, bind_ret e'' (l' := []) rfl, List.append_nil]
    simp only [POp.plan, List.getElem?_eq_getElem hv', Option.toList_some, List.flatMap_cons, List.flatMap_nil, List.append_nil]
    rfl
  | flush i =>
    have hv' : i < ls.length := hget hv
    obtain ⟨s, e, e', hr⟩ := r.get hv'
    refine ⟨ss.set i s, hlift ?_, r.set hv' hr⟩
    simp only [POp.exec, PState.flush, e, bind, Except.bind, POp.answer]
  | finalize i =>
    have hv' : i < ls.length := hget hv
    obtain ⟨s, e, _, hr⟩ := r.get hv'
    refine ⟨ss, ?_, r⟩
    have e'' := (congrArg (fun t : Traced a (Node a) (Hash a) => t.relabel fun n => (i, n)) hr.finalize).trans (relabel_ret _ _ _)
    rw [POp.execT, lift_bind e, bind_ret e'' (l' := []) (lift_bind (asBytes_pconfig hr.rel.2.2.2.2.1 _)), List.append_nil]
    simp only [POp.plan, List.getElem?_eq_getElem hv', Option.toList_some, List.flatMap_cons, List.flatMap_nil, List.append_nil,
      POp.answer, List.getElem?_map, Option.map_some]
    rfl
  | count i =>
    obtain ⟨ss', e, _⟩ := pexec_refines r.forget dbg (.count i) hv
    have hs : ss' = ss := by
      simp only [POp.exec, bind, Except.bind] at e
      cases h1 : getState ss i with
      | error f => rw [h1] at e; cases e
      | ok s =>
        rw [h1] at e
        simp only at e
        cases h2 : s.getCount dbg with
        | error f => rw [h2] at e; cases e
        | ok n => rw [h2] at e; exact (congrArg Prod.fst (Except.ok.inj e)).symm
    subst hs
    exact ⟨_, hlift e, r⟩

/-! ## The plan is right -/

section
variable {κ : Type} [DecidableEq κ]

theorem callsOf_pair (i j : Nat) (n : κ) (log : List (Pass a κ)) :
    callsOf (j, n) (rename (fun n => (i, n)) log) = if i = j then callsOf n log else [] := by
  split
  · rename_i h
    subst h
    exact callsOf_rename (f := fun n => (i, n)) (fun _ _ e => (Prod.mk.inj e).2) n log
  · rename_i h
    exact callsOf_rename_other (fun m e => h (Prod.mk.inj e).1) log

omit [DecidableEq κ] in
theorem pair_lanes {W : List Nat} (i n : Nat) (hi : i < n) {log : List (Pass a κ)}
    (h : ∀ p ∈ log, (p.map Prod.fst).Nodup ∧ p.length ∈ W) :
    ∀ p ∈ rename (fun n => (i, n)) log, ((p.map Prod.fst).Nodup ∧ ∀ c ∈ p, c.1.1 < n) ∧ p.length ∈ W := by
  intro p hp
  refine ⟨⟨rename_nodup (fun _ _ e => (Prod.mk.inj e).2) (fun q hq => (h q hq).1) p hp, ?_⟩, ?_⟩
  · obtain ⟨q, hq, rfl⟩ := List.mem_map.1 hp
    intro c hc
    obtain ⟨d, _, rfl⟩ := List.mem_map.1 hc
    exact hi
  · obtain ⟨q, hq, rfl⟩ := List.mem_map.1 hp
    rw [List.length_map]
    exact (h q hq).2
end

theorem Rel.getL {ls : List Ledger} {ss : List (PState a)} (r : Rel (LRel a) ls ss) {i : Nat} {l : Ledger}
    (h : ls[i]? = some l) : ∃ s, LRel a l s := by
  obtain ⟨hi, rfl⟩ := List.getElem?_eq_some_iff.1 h
  exact ⟨_, r.2 i hi (by rw [r.1]; exact hi)⟩

theorem plan_logs {ls : List Ledger} {ss ss' : List (PState a)} (r : Rel (LRel a) ls ss) (op : POp Platform)
    (r' : Rel (LRel a) (POp.nextL a ls op) ss') {dbg : Bool} (hv : op.Valid a dbg (ls.map Ledger.hasher)) :
    op.Logs a (ls.map Ledger.hasher) (ls.map Ledger.done) ((POp.nextL a ls op).map Ledger.done) (POp.plan a ls op) ∧
      ∀ p ∈ POp.plan a ls op, p.length ∈ widths a := by
  have hget : ∀ {i : Nat}, i < (ls.map Ledger.hasher).length → i < ls.length := fun h => by simpa using h
  have hwithin : ∀ (i : Nat) (h : PHasher) (k : Nat), (op.next a (ls.map Ledger.hasher))[i]? = some h →
      ((POp.nextL a ls op).map Ledger.done)[i]? = some k →
      ∀ leaf, k < (h.calls a (some leaf)).length ∧ (h.calls a (some leaf)).length ≤ k + 2 := by
    intro i h k e1 e2 leaf
    rw [← nextL_hashers, List.getElem?_map] at e1
    rw [List.getElem?_map] at e2
    cases e : (POp.nextL a ls op)[i]? with
    | none => rw [e] at e1; cases e1
    | some l =>
      rw [e] at e1 e2
      cases e1; cases e2
      obtain ⟨s, hs⟩ := r'.getL e
      exact hs.within leaf
  -- operations that log nothing and leave the existing hashers alone
  have hquiet : POp.plan a ls op = [] → (∀ (i : Nat) (l : Ledger), ls[i]? = some l → (POp.nextL a ls op)[i]? = some l) → (∀ j, op ≠ .finalize j) →
      (match (generalizing := false) op with
        | .create _ _ => (POp.nextL a ls op).map Ledger.done = ls.map Ledger.done ++ [0]
        | .clone i => (POp.nextL a ls op).map Ledger.done = ls.map Ledger.done ++ (ls.map Ledger.done)[i]?.toList
        | .update i _ => ∃ m, (POp.nextL a ls op).map Ledger.done = (ls.map Ledger.done).modify i (· + m)
        | .write i _ => ∃ m, (POp.nextL a ls op).map Ledger.done = (ls.map Ledger.done).modify i (· + m)
        | _ => (POp.nextL a ls op).map Ledger.done = ls.map Ledger.done) →
      op.Logs a (ls.map Ledger.hasher) (ls.map Ledger.done) ((POp.nextL a ls op).map Ledger.done) (POp.plan a ls op) ∧
      ∀ p ∈ POp.plan a ls op, p.length ∈ widths a := by
    intro h0 h1 h2 h3
    rw [h0]
    refine ⟨⟨by cases op <;> exact h3, hwithin, fun i h h' k k' e1 e2 e3 e4 => ?_, by simp⟩, by simp⟩
    rw [← nextL_hashers] at e2
    rw [List.getElem?_map] at e1 e2 e3 e4
    cases e : ls[i]? with
    | none => rw [e] at e1; cases e1
    | some l =>
      have e' := h1 i l e
      rw [e] at e1 e3
      rw [e'] at e2 e4
      cases e1; cases e2; cases e3; cases e4
      have hnil : ∀ n, callsOf (i, n) ([] : List (Pass a (Nat × Node a))) = [] := fun _ => rfl
      refine ⟨fun leaf => ?_, ?_⟩
      · rw [hnil, List.append_nil]
        cases op <;> first | rfl | exact absurd rfl (h2 _)
      · rw [hnil]
        cases op <;> first | rfl | exact absurd rfl (h2 _)
  -- updates
  have hupd : ∀ (i : Nat) (x : List Byte), i < ls.length → POp.nextL a ls op = ls.modify i (Ledger.feed a x) →
      POp.plan a ls op = ls[i]?.toList.flatMap (fun l => rename (fun n => (i, n)) (l.updLog a x)) →
      (∃ m, (POp.nextL a ls op).map Ledger.done = (ls.map Ledger.done).modify i (· + m)) ∧
      (∀ (j : Nat) (h h' : PHasher) (k k' : Nat), (ls.map Ledger.hasher)[j]? = some h →
        (op.next a (ls.map Ledger.hasher))[j]? = some h' → (ls.map Ledger.done)[j]? = some k →
        ((POp.nextL a ls op).map Ledger.done)[j]? = some k' →
        (∀ leaf, (h.calls a (some leaf)).take k ++ callsOf (j, some leaf) (POp.plan a ls op) =
          (h'.calls a (some leaf)).take k') ∧ callsOf (j, none) (POp.plan a ls op) = []) ∧
      ∀ p ∈ POp.plan a ls op, ((p.map Prod.fst).Nodup ∧ ∀ c ∈ p, c.1.1 < (ls.map Ledger.hasher).length) ∧
        p.length ∈ widths a := by
    intro i x hi hn hp
    rw [List.getElem?_eq_getElem hi, Option.toList_some, List.flatMap_cons, List.flatMap_nil, List.append_nil] at hp
    refine ⟨⟨PState.due1 a (ls[i].bufLen a) x.length + PState.due2 a (ls[i].bufLen a) x.length, ?_⟩, ?_, ?_⟩
    · rw [hn]
      apply List.ext_getElem?
      intro j
      simp only [List.getElem?_map, List.getElem?_modify]
      by_cases hij : i = j
      · subst hij
        rw [List.getElem?_eq_getElem hi]
        simp only [if_true, Option.map_some, Ledger.feed, Nat.add_assoc]
        rfl
      · simp only [if_neg hij]
        cases ls[j]? <;> rfl
    · intro j h h' k k' e1 e2 e3 e4
      rw [← nextL_hashers, hn] at e2
      rw [hn] at e4
      rw [List.getElem?_map] at e1 e2 e3 e4
      rw [hp]
      by_cases hij : i = j
      · subst hij
        rw [modify_same] at e2 e4
        rw [List.getElem?_eq_getElem hi] at e1 e2 e3 e4
        cases e1; cases e2; cases e3; cases e4
        obtain ⟨s, hr⟩ := r.getL (List.getElem?_eq_getElem hi)
        refine ⟨fun leaf => ?_, ?_⟩
        · rw [callsOf_pair, if_pos rfl]
          exact hr.upd_leaf x leaf
        · rw [callsOf_pair, if_pos rfl]
          exact LRel.upd_root x
      · rw [modify_other _ hij] at e2 e4
        cases e : ls[j]? with
        | none => rw [e] at e1; cases e1
        | some l =>
          rw [e] at e1 e2 e3 e4
          cases e1; cases e2; cases e3; cases e4
          refine ⟨fun leaf => ?_, ?_⟩
          · rw [callsOf_pair, if_neg hij, List.append_nil]
          · rw [callsOf_pair, if_neg hij]
    · rw [hp]
      exact pair_lanes i _ (by rw [List.length_map]; exact hi) (updLog_lanes _ _)
  cases op with
  | create plat calls =>
    refine hquiet rfl (fun i l e => ?_) (fun j => nofun) (by simp [POp.nextL])
    obtain ⟨hi, _⟩ := List.getElem?_eq_some_iff.1 e
    rw [POp.nextL, List.getElem?_append_left hi, e]
  | clone i =>
    refine hquiet rfl (fun i l e => ?_) (fun j => nofun) ?_
    · obtain ⟨hi, _⟩ := List.getElem?_eq_some_iff.1 e
      rw [POp.nextL, List.getElem?_append_left hi, e]
    · simp only [POp.nextL, List.map_append, List.getElem?_map]
      cases ls[i]? <;> rfl
  | update i x =>
    obtain ⟨h1, h2, h3⟩ := hupd i x (hget hv) rfl rfl
    exact ⟨⟨h1, hwithin, h2, fun p hp => (h3 p hp).1⟩, fun p hp => (h3 p hp).2⟩
  | write i x =>
    obtain ⟨h1, h2, h3⟩ := hupd i x (hget hv) rfl rfl
    exact ⟨⟨h1, hwithin, h2, fun p hp => (h3 p hp).1⟩, fun p hp => (h3 p hp).2⟩
  | flush i => exact hquiet rfl (fun i l e => e) (fun j => nofun) rfl
  | count i => exact hquiet rfl (fun i l e => e) (fun j => nofun) rfl
  | finalize i =>
    have hi : i < ls.length := hget hv
    have hp : POp.plan a ls (.finalize i) = rename (fun n => (i, n)) (ls[i].finLog a) := by
      rw [POp.plan, List.getElem?_eq_getElem hi, Option.toList_some, List.flatMap_cons, List.flatMap_nil, List.append_nil]
    have hlanes := pair_lanes (a := a) i (ls.map Ledger.hasher).length (by rw [List.length_map]; exact hi) (finLog_lanes ls[i])
    rw [hp]
    refine ⟨⟨rfl, hwithin, fun j h h' k k' e1 e2 e3 e4 => ?_, fun p hp => (hlanes p hp).1⟩, fun p hp => (hlanes p hp).2⟩
    simp only
    rw [List.getElem?_map] at e1 e3
    by_cases hij : i = j
    · subst hij
      rw [List.getElem?_eq_getElem hi] at e1 e3
      cases e1; cases e3
      refine ⟨fun leaf => ?_, ?_⟩
      · rw [callsOf_pair, if_pos rfl, if_pos rfl, finLog_leaf, List.take_append_drop]
      · rw [callsOf_pair, if_pos rfl, if_pos rfl, finLog_root]
    · refine ⟨fun leaf => ?_, ?_⟩
      · rw [callsOf_pair, if_neg hij, if_neg hij, List.append_nil]
      · rw [callsOf_pair, if_neg hij, if_neg hij]

/-- What a history logs. -/
def planAll (a : Alg) : List Ledger → List (POp Platform) → List (List (Pass a (Nat × Node a)))
  | _, [] => []
  | ls, op :: ops => POp.plan a ls op :: planAll a (POp.nextL a ls op) ops

theorem pexecAllT_plan {ls : List Ledger} {ss : List (PState a)} (r : Rel (LRel a) ls ss) (dbg : Bool) (ops : List (POp Platform))
    (hv : ValidPHistory a dbg (ls.map Ledger.hasher) ops) :
    (∃ ss', pexecAllT dbg ss ops = .ok (ss', (panswers a (ls.map Ledger.hasher) ops).zip (planAll a ls ops))) ∧
      LogsPHistory a (ls.map Ledger.hasher) (ls.map Ledger.done) ops (planAll a ls ops) ∧
      ∀ log ∈ planAll a ls ops, ∀ p ∈ log, p.length ∈ widths a := by
  induction ops generalizing ls ss with
  | nil => exact ⟨⟨ss, rfl⟩, trivial, by simp [planAll]⟩
  | cons op ops ih =>
    obtain ⟨s1, e1, r1⟩ := pexecT_plan r dbg op hv.1
    obtain ⟨l1, w1⟩ := plan_logs r op r1 hv.1
    have hv2 := hv.2
    rw [← nextL_hashers] at hv2
    obtain ⟨⟨s2, e2⟩, l2, w2⟩ := ih r1 hv2
    refine ⟨⟨s2, ?_⟩, ⟨_, l1, ?_⟩, ?_⟩
    · simp only [pexecAllT, e1, Traced.ret, e2, bind, Except.bind, panswers, planAll, List.zip_cons_cons, nextL_hashers]
    · rw [← nextL_hashers]; exact l2
    · intro lg hlg
      rcases List.mem_cons.1 hlg with rfl | h
      · exact w1
      · exact w2 lg h

/-! ## One-shot hashing -/

/-- The log of `Params::hash`: with a key it goes through a state, without it compresses the leaves in place. -/
def phashLog (a : Alg) (imp : Platform) (c : PConfig) (msg : List Byte) : List (Pass a (Node a)) :=
  if c.key = [] then Ledger.finLog a ⟨{ config := c, msg := msg }, 0, imp⟩
  else Ledger.updLog a msg ⟨{ config := c, msg := [] }, 0, imp⟩ ++
    Ledger.finLog a (Ledger.feed a msg ⟨{ config := c, msg := [] }, 0, imp⟩)

theorem phashT_eq {n : Nat} {key : List Byte} {p : PParams a} (h : PRep a n key p) (msg : List Byte) :
    ∃ y, p.hashT msg = ret y (phashLog a p.implementation { hashLength := n, key := key } msg) := by
  unfold PParams.hashT
  by_cases hp : p.keyLength.toNat > 0
  · rw [if_pos hp]
    obtain ⟨s, e, hr⟩ := LRel.create (c := { hashLength := n, key := key }) h
    obtain ⟨s', e', hr'⟩ := hr.update msg
    have hk : key ≠ [] := by
      rintro rfl
      rw [h.key_toNat] at hp
      exact absurd hp (by simp)
    rw [phashLog, if_neg hk]
    exact ⟨_, (lift_bind e).trans (bind_ret e' hr'.finalize)⟩
  · rw [if_neg hp]
    have he : key = [] := by
      apply List.eq_nil_of_length_eq_zero
      rw [← h.key_toNat]; omega
    have e1 := compressLeavesT_eq (fun i : Fin (parDegree a) => do
        let inp ← sliceFrom msg (min msg.length (i.val * a.bb))
        .ok (inp, 0, decide (i.val = parDegree a - 1))) p.implementation true
        (Vector.ofFn fun i => initH a (leafConfig a n key i))
        (fun i => (msg.drop (i.val * a.bb), 0, decide (i.val = parDegree a - 1))) (by
      intro i
      simp only [sliceFrom]
      rw [if_pos (by omega)]
      simp only [bind, Except.bind]
      congr 2
      rcases Nat.le_total msg.length (i.val * a.bb) with h1 | h1
      · rw [Nat.min_eq_left h1, List.drop_length, List.drop_eq_nil_of_le h1]
      · rw [Nat.min_eq_right h1]) (fun i => .inl rfl) (fun i => by simp)
    have hks : keyStripe a key ++ msg = msg := by rw [keyStripe, if_pos he, List.nil_append]
    have hv : (Vector.ofFn fun i : Fin (parDegree a) => absorb a .Parallel true (decide (i.val = parDegree a - 1))
        (Vector.ofFn fun i : Fin (parDegree a) => initH a (leafConfig a n key i))[i] 0 (msg.drop (i.val * a.bb))) =
        Vector.ofFn fun i : Fin (parDegree a) => process a (initH a (leafConfig a n key i)) (leaf a i (keyStripe a key ++ msg))
          (decide (i.val = parDegree a - 1)) := by
      refine congrArg Vector.ofFn (funext fun i => ?_)
      have := absorb_leaf_final i.val (initH a (leafConfig a n key i)) msg (decide (i.val = parDegree a - 1)) 0 (.inl rfl)
      simp only [Nat.zero_mul, List.drop_zero, chain_zero] at this
      rw [hks, ← this]
      simp only [Fin.getElem_fin, Vector.getElem_ofFn]
      rfl
    have hc : (fun i : Fin (parDegree a) => absorbCalls a .Parallel true (decide (i.val = parDegree a - 1)) 0 (msg.drop (i.val * a.bb))) =
        fun i => (({ config := { hashLength := n, key := key }, msg := msg } : PHasher).calls a (some i)).drop 0 := by
      funext i
      rw [calls_leaf (h := { config := { hashLength := n, key := key }, msg := msg }) h.keyLe]
      have hf := absorbCalls_leaf_final (a := a) i.val msg (decide (i.val = parDegree a - 1)) 0 (.inl rfl)
      simp only [Nat.zero_mul, List.drop_zero] at hf
      simp only [hks]
      rw [List.drop_zero, ← hf]
      rfl
    simp only at e1
    rw [hv, hc] at e1
    have e2 := bind_ret (f := fun leaves => finalizeRootWordsT leaves (initH a (rootConfig a n key)) p.hashLength p.implementation) e1
      (finalizeRootWordsT_eq _ (initH a (rootConfig a n key)) p.hashLength p.implementation)
    rw [leaves_flatMap h.keyLe] at e2
    rw [phashLog, if_pos he]
    exact ⟨_, (lift_bind (PParams.toWords_eq h)).trans e2⟩

theorem phashLog_calls {n : Nat} {key : List Byte} {p : PParams a} (h : PRep a n key p) (msg : List Byte)
    (node : Node a) : callsOf node (phashLog a p.implementation { hashLength := n, key := key } msg) =
      ({ config := { hashLength := n, key := key }, msg := msg } : PHasher).calls a node := by
  unfold phashLog
  split
  · cases node with
    | none => exact finLog_root _
    | some i => exact finLog_leaf _ i
  · obtain ⟨s, _, hr⟩ := LRel.create (c := { hashLength := n, key := key }) h
    rw [callsOf_eq_mine, Sched.mine_append, ← callsOf_eq_mine, ← callsOf_eq_mine]
    cases node with
    | none => rw [LRel.upd_root, finLog_root]; rfl
    | some i =>
      have hu := hr.upd_leaf msg i
      rw [show (Ledger.mk { config := { hashLength := n, key := key }, msg := [] } 0 p.implementation).done = 0 from rfl,
        List.take_zero, List.nil_append] at hu
      rw [hu, finLog_leaf, List.take_append_drop]
      rfl

theorem phashLog_lanes (imp : Platform) (c : PConfig) (msg : List Byte) :
    ∀ q ∈ phashLog a imp c msg, (q.map Prod.fst).Nodup ∧ q.length ∈ widths a := by
  unfold phashLog
  split
  · exact finLog_lanes _
  · intro q hq
    rcases List.mem_append.1 hq with hq | hq
    · exact updLog_lanes _ _ q hq
    · exact finLog_lanes _ q hq

end Blake2
