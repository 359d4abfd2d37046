import Verif.Proofs.TraceHistory
/-! # The log apart from the blocks depends on lengths only -/
namespace Blake2
open Traced Spec

variable {a : Alg}

theorem absorbCalls_shape (s : Stride) (fin ln : Bool) (n : Nat) (c : Count a) (x y : List Byte) (hn : x.length ≤ n)
    (h : x.length = y.length) :
    (absorbCalls a s fin ln c x).map Call.shape = (absorbCalls a s fin ln c y).map Call.shape := by
  induction n generalizing c x y with
  | zero =>
    have hx := List.eq_nil_of_length_eq_zero (Nat.le_zero.1 hn)
    subst hx
    have hy := List.eq_nil_of_length_eq_zero h.symm
    subst hy
    rfl
  | succ n ih =>
    have hp := padded_pos a s
    by_cases hle : y.length ≤ s.padded a
    · have hle' : x.length ≤ s.padded a := h ▸ hle
      rw [absorbCalls, if_pos hle']
      conv => rhs; rw [absorbCalls, if_pos hle]
      simp [Call.shape, h]
    · have hle' : ¬ x.length ≤ s.padded a := h ▸ hle
      rw [absorbCalls, if_neg hle']
      conv => rhs; rw [absorbCalls, if_neg hle]
      simp only [List.map_cons, Call.shape]
      rw [ih _ (x.drop (s.padded a)) (y.drop (s.padded a)) (by rw [List.length_drop]; omega)
        (by rw [List.length_drop, List.length_drop, h])]

theorem nil_iff_of_length {α β : Type} {x : List α} {y : List β} (h : x.length = y.length) : (x = []) = (y = []) := by
  rw [← List.length_eq_zero_iff, ← List.length_eq_zero_iff, h]

/-- Two states that look alike from outside. -/
structure Pub (s s' : State a) : Prop where
  buflen : s.buflen = s'.buflen
  bufLength : s.buf.length = s'.buf.length
  count : s.count = s'.count
  lastNode : s.lastNode = s'.lastNode

theorem Pub.filled {s s' : State a} (h : Pub s s') {x y : List Byte} (hx : x.length = y.length) :
    Pub (State.filled s x) (State.filled s' y) := by
  unfold State.filled
  refine ⟨?_, ?_, h.count, h.lastNode⟩
  · simp [h.buflen, hx]
  · simp [h.buflen, hx, h.bufLength]

theorem Pub.cbpCalls {s s' : State a} (h : Pub s s') {x y : List Byte} (hx : x.length = y.length) :
    (State.cbpCalls s x).map Call.shape = (State.cbpCalls s' y).map Call.shape := by
  unfold State.cbpCalls
  have h1 := h.buflen
  have hd : (x.drop (min (a.bb - s.buflen) x.length)).length = (y.drop (min (a.bb - s'.buflen) y.length)).length := by
    rw [List.length_drop, List.length_drop, hx, h1]
  by_cases hp : s'.buflen > 0
  · by_cases he : y.drop (min (a.bb - s'.buflen) y.length) = []
    · rw [if_pos (h1 ▸ hp), if_pos hp, if_pos he, if_pos ((nil_iff_of_length hd).mpr he)]
    · rw [if_pos (h1 ▸ hp), if_pos hp, if_neg he, if_neg (fun e => he ((nil_iff_of_length hd).mp e)), h.lastNode, h.count]
      exact absorbCalls_shape _ _ _ _ _ _ _ (Nat.le_refl _) (h.filled hx).bufLength
  · rw [if_neg (h1 ▸ hp), if_neg hp]

theorem Pub.cbp {s s' : State a} (h : Pub s s') {x y : List Byte} (hx : x.length = y.length) :
    Pub (State.cbp s x).1 (State.cbp s' y).1 ∧ (State.cbp s x).2.length = (State.cbp s' y).2.length := by
  unfold State.cbp
  have h1 := h.buflen
  have hd : (x.drop (min (a.bb - s.buflen) x.length)).length = (y.drop (min (a.bb - s'.buflen) y.length)).length := by
    rw [List.length_drop, List.length_drop, hx, h1]
  have hf := h.filled hx
  by_cases hp : s'.buflen > 0
  · by_cases he : y.drop (min (a.bb - s'.buflen) y.length) = []
    · simp only [if_pos (show s.buflen > 0 from h1 ▸ hp), if_pos hp, if_pos he, if_pos ((nil_iff_of_length hd).mpr he)]
      exact ⟨hf, trivial⟩
    · simp only [if_pos (show s.buflen > 0 from h1 ▸ hp), if_pos hp, if_neg he,
        if_neg (fun e => he ((nil_iff_of_length hd).mp e))]
      refine ⟨⟨rfl, hf.bufLength, ?_, hf.lastNode⟩, hd⟩
      simp [h.count]
  · simp only [if_neg (show ¬ s.buflen > 0 from h1 ▸ hp), if_neg hp]
    exact ⟨h, hx⟩

theorem bulk_congr {x y : List Byte} (hx : x.length = y.length) : State.bulk a x = State.bulk a y := by
  unfold State.bulk; rw [hx]

theorem Pub.updatePull {s s' : State a} (h : Pub s s') {x y : List Byte} (hx : x.length = y.length) :
    ((updatePull s x).1.map Call.shape, (updatePull s x).2.map (List.map Call.shape)) =
      ((updatePull s' y).1.map Call.shape, (updatePull s' y).2.map (List.map Call.shape)) := by
  obtain ⟨h1, h2⟩ := h.cbp hx
  unfold Blake2.updatePull
  simp only [h.cbpCalls hx, nil_iff_of_length h2, bulk_congr h2, h1.lastNode, h1.count]
  congr 1
  split
  · rfl
  · split
    · simp only [Option.map_some]
      rw [absorbCalls_shape _ _ _ _ _ _ _ (Nat.le_refl _)]
      rw [List.length_take, List.length_take, h2]
    · rfl

theorem Pub.updCalls {s s' : State a} (h : Pub s s') {x y : List Byte} (hx : x.length = y.length) :
    (State.updCalls s x).map Call.shape = (State.updCalls s' y).map Call.shape := by
  have := h.updatePull hx
  rw [Prod.mk.injEq] at this
  rw [← updatePull_calls, ← updatePull_calls, List.map_append, List.map_append, this.1]
  congr 1
  have h2 := congrArg (fun o => o.getD []) this.2
  cases h3 : (Blake2.updatePull s x).2 <;> cases h4 : (Blake2.updatePull s' y).2 <;> simp_all

/-! ## Batches -/

theorem run_fin_congr {C κ : Type} {n m : Nat} (h : n = m) (pull : Sched.Pull (Fin n) C) (pull' : Sched.Pull (Fin m) C)
    (hp : ∀ i, pull i = pull' (Fin.cast h i)) (d hi lo : Nat) (f : Nat → κ) :
    (Sched.run pull d hi lo (List.finRange n)).map (fun p => p.map fun c => (f c.1.val, c.2)) =
      (Sched.run pull' d hi lo (List.finRange m)).map (fun p => p.map fun c => (f c.1.val, c.2)) := by
  subst h
  have : pull = pull' := funext hp
  rw [this]

theorem shapes_rename {ι κ : Type} (f : ι → κ) (log : List (Pass a ι)) :
    shapes (rename f log) = (Sched.mapLog Call.shape log).map (fun p => p.map fun c => (f c.1, c.2)) := by
  simp only [shapes, rename, Sched.mapLog, List.map_map]
  apply List.map_congr_left
  intro p _
  simp [Function.comp_def]

theorem shapes_run_congr {n m : Nat} (h : n = m) (pull : Sched.Pull (Fin n) (Call a)) (pull' : Sched.Pull (Fin m) (Call a))
    (hp : ∀ i, Sched.mapPull Call.shape pull i = Sched.mapPull Call.shape pull' (Fin.cast h i)) (d hi lo : Nat)
    (f : Nat → Nat) :
    shapes (rename (fun k => f k.val) (Sched.run pull d hi lo (List.finRange n))) =
      shapes (rename (fun k => f k.val) (Sched.run pull' d hi lo (List.finRange m))) := by
  rw [shapes_rename, shapes_rename, ← Sched.run_map, ← Sched.run_map]
  exact run_fin_congr h _ _ hp d hi lo f

theorem shapes_solo {ι : Type} (i : ι) {cs cs' : List (Call a)} (h : cs.map Call.shape = cs'.map Call.shape) :
    shapes (solo i cs) = shapes (solo i cs') := by
  have : ∀ cs : List (Call a), shapes (solo i cs) = (cs.map Call.shape).map fun c => [(i, c)] := by
    intro cs
    simp [shapes, solo, Function.comp_def]
  rw [this, this, h]

/-! ## Two runs -/

/-- Two hashers that differ only in the contents of keys and messages (and in parameters that play no part here). -/
structure PubH (h h' : Hasher) : Prop where
  key : h.config.key.length = h'.config.key.length
  lastNode : h.config.lastNode = h'.config.lastNode
  msg : h.msg.length = h'.msg.length

theorem State.Inv.k_eq {h0 : Vector (Word a) 8} {D : List Byte} {k : Nat} {s : State a} (h : State.Inv h0 D k s) :
    k = Spec.numBlocks a D.length - 1 := by
  have h1 := h.buflen
  have h2 := h.small
  have h3 := h.le
  rw [numBlocks_of h.pos (by omega)]

theorem PubH.state {h h' : Hasher} {s s' : State a} (p : PubH h h') (r : HRel a h s) (r' : HRel a h' s') : Pub s s' := by
  obtain ⟨⟨k, hk⟩, hl, _, _, hv⟩ := r
  obtain ⟨⟨k', hk'⟩, hl', _, _, hv'⟩ := r'
  have hD : (keyPart a h.config.key ++ h.msg).length = (keyPart a h'.config.key ++ h'.msg).length := by
    rw [List.length_append, List.length_append, keyPart_len hv, keyPart_len hv', p.msg]
    simp only [nil_iff_of_length p.key]
  have hkk : k = k' := by rw [hk.k_eq, hk'.k_eq, hD]
  refine ⟨?_, by rw [hk.bufLength, hk'.bufLength], by rw [hk.count, hk'.count, hkk], by rw [hl, hl', p.lastNode]⟩
  rw [hk.buflen, hk'.buflen, hD, hkk]

def AllPub (hs hs' : List Hasher) : Prop :=
  hs.length = hs'.length ∧ ∀ (i : Nat) (h h' : Hasher), hs[i]? = some h → hs'[i]? = some h' → PubH h h'

theorem AllPub.append {hs hs' : List Hasher} (p : AllPub hs hs') {h h' : Hasher} (q : PubH h h') :
    AllPub (hs ++ [h]) (hs' ++ [h']) := by
  refine ⟨by simp [p.1], fun i g g' e e' => ?_⟩
  rw [List.getElem?_append] at e e'
  rw [p.1] at e
  split at e
  · rename_i hi
    rw [if_pos hi] at e'
    exact p.2 i g g' e e'
  · rename_i hi
    rw [if_neg hi] at e'
    obtain ⟨h1, rfl⟩ := List.getElem?_eq_some_iff.1 e
    obtain ⟨h2, rfl⟩ := List.getElem?_eq_some_iff.1 e'
    simpa using q

theorem AllPub.modify {hs hs' : List Hasher} (p : AllPub hs hs') (i : Nat) (f f' : Hasher → Hasher)
    (hf : ∀ h h', PubH h h' → PubH (f h) (f' h')) : AllPub (hs.modify i f) (hs'.modify i f') := by
  refine ⟨by simp [p.1], fun k g g' e e' => ?_⟩
  by_cases hik : i = k
  · subst hik
    rw [modify_same] at e e'
    cases h1 : hs[i]? with
    | none => rw [h1] at e; cases e
    | some h =>
      cases h2 : hs'[i]? with
      | none => rw [h2] at e'; cases e'
      | some h' =>
        rw [h1] at e; rw [h2] at e'
        cases e; cases e'
        exact hf _ _ (p.2 i h h' h1 h2)
  · rw [modify_other _ hik] at e e'
    exact p.2 k g g' e e'

theorem PubH.feed {h h' : Hasher} (p : PubH h h') {x y : List Byte} (hx : x.length = y.length) :
    PubH (h.feed x) (h'.feed y) :=
  ⟨p.key, p.lastNode, by simp [Hasher.feed, p.msg, hx]⟩

theorem AllPub.feedAll {js js' : List (Nat × List Byte)}
    (hj : js.map (fun j => (j.1, j.2.length)) = js'.map (fun j => (j.1, j.2.length))) {hs hs' : List Hasher} (p : AllPub hs hs') :
    AllPub (js.foldl (fun hs j => hs.modify j.1 (Hasher.feed j.2)) hs)
      (js'.foldl (fun hs j => hs.modify j.1 (Hasher.feed j.2)) hs') := by
  induction js generalizing js' hs hs' with
  | nil =>
    cases js' with
    | nil => exact p
    | cons j js' => simp at hj
  | cons j js ih =>
    cases js' with
    | nil => simp at hj
    | cons j' js' =>
      simp only [List.map_cons, List.cons.injEq, Prod.mk.injEq] at hj
      obtain ⟨⟨h1, h2⟩, h3⟩ := hj
      rw [List.foldl_cons, List.foldl_cons, ← h1]
      exact ih h3 (p.modify _ _ _ fun h h' q => q.feed h2)

theorem AllPub.next {op op' : Op Platform} (hal : op.Alike a op') {hs hs' : List Hasher} (p : AllPub hs hs') :
    AllPub (op.next a hs) (op'.next a hs') := by
  cases op <;> cases op' <;> simp only [Op.Alike] at hal
  · exact p.append ⟨hal.2.1, hal.2.2, rfl⟩
  · subst hal
    rename_i i
    simp only [Op.next]
    cases h1 : hs[i]? with
    | none =>
      have : hs'[i]? = none := by
        rw [List.getElem?_eq_none_iff] at h1 ⊢
        rw [← p.1]; exact h1
      rw [this]; simpa using p
    | some h =>
      cases h2 : hs'[i]? with
      | none =>
        rw [List.getElem?_eq_none_iff, ← p.1, ← List.getElem?_eq_none_iff, h1] at h2
        cases h2
      | some h' => exact p.append (p.2 i h h' h1 h2)
  · obtain ⟨rfl, h⟩ := hal; exact p.modify _ _ _ fun _ _ q => q.feed h
  · exact p.feedAll hal
  · obtain ⟨rfl, h⟩ := hal; exact p.modify _ _ _ fun _ _ q => q.feed h
  · exact p
  · obtain ⟨rfl, rfl⟩ := hal; exact p.modify _ _ _ fun _ _ q => ⟨q.key, rfl, q.msg⟩
  · exact p
  · exact p

/-! ### The implementations of the states -/

def imps (ss : List (State a)) : List Platform := ss.map (·.implementation)

def nextImps (l : List Platform) : Op Platform → List Platform
  | .create plat _ => l ++ [plat]
  | .clone i => l ++ l[i]?.toList
  | _ => l

theorem imps_set {ss : List (State a)} {i : Nat} {s s' : State a} (h : ss[i]? = some s)
    (he : s'.implementation = s.implementation) : imps (ss.set i s') = imps ss := by
  unfold imps
  apply List.ext_getElem?
  intro k
  rw [List.getElem?_map, List.getElem?_map, List.getElem?_set]
  by_cases hik : i = k
  · subst hik
    obtain ⟨hi, hg⟩ := List.getElem?_eq_some_iff.1 h
    simp [hi, he, hg]
  · simp [hik]

theorem imps_foldl (l : List ((Nat × List Byte) × State a)) (ss : List (State a))
    (h : ∀ p ∈ l, (imps ss)[p.1.1]? = some p.2.implementation) :
    imps (l.foldl (fun ss p => ss.set p.1.1 p.2) ss) = imps ss := by
  induction l generalizing ss with
  | nil => rfl
  | cons p l ih =>
    have hp := h p (by simp)
    have : imps (ss.set p.1.1 p.2) = imps ss := by
      unfold imps at hp
      rw [List.getElem?_map] at hp
      cases e : ss[p.1.1]? with
      | none => rw [e] at hp; cases hp
      | some s =>
        rw [e] at hp
        exact imps_set e (Option.some.inj hp).symm
    rw [List.foldl_cons, ih, this]
    intro q hq
    rw [this]
    exact h q (by simp [hq])

theorem exec_imps {hs : List Hasher} {ss ss' : List (State a)} {o : Obs} (r : Rel (HRel a) hs ss) {dbg : Bool} {op : Op Platform}
    (hv : op.Valid a dbg hs) (he : op.exec dbg ss = .ok (ss', o)) : imps ss' = nextImps (imps ss) op := by
  cases op with
  | create plat calls =>
    obtain ⟨p, e, hr, hi⟩ := rep_build (rep_new a plat) calls hv
    simp only [Op.exec, e, bind, Except.bind] at he
    cases he
    obtain ⟨_, _, _, h4, _⟩ := withParams_inv hr
    have hst : p.toState.implementation = plat := h4.trans hi
    simp [imps, nextImps, hst]
  | clone i =>
    obtain ⟨s, e, e', hr⟩ := r.get hv
    simp only [Op.exec, e, bind, Except.bind] at he
    cases he
    simp [imps, nextImps, e']
  | update i x =>
    obtain ⟨s, e, e', hr⟩ := r.get hv
    simp only [Op.exec, e, bind, Except.bind, State.update_eq s x hr.sane] at he
    cases he
    exact imps_set e' (State.upd_meta s x).implementation
  | write i x =>
    obtain ⟨s, e, e', hr⟩ := r.get hv
    simp only [Op.exec, State.write, e, bind, Except.bind, State.update_eq s x hr.sane] at he
    cases he
    exact imps_set e' (State.upd_meta s x).implementation
  | flush i =>
    obtain ⟨s, e, e', hr⟩ := r.get hv
    simp only [Op.exec, State.flush, e, bind, Except.bind] at he
    cases he
    exact imps_set e' rfl
  | setLastNode i b =>
    obtain ⟨s, e, e', hr⟩ := r.get hv
    simp only [Op.exec, e, bind, Except.bind] at he
    cases he
    exact imps_set e' rfl
  | finalize i =>
    obtain ⟨s, e, e', hr⟩ := r.get hv
    simp only [Op.exec, e, bind, Except.bind, hr.finalize, asBytes_config hr.2.2.2.2] at he
    cases he
    rfl
  | count i =>
    obtain ⟨s, e, e', hr⟩ := r.get hv.1
    have hv' : i < hs.length := hv.1
    have hc := hr.count dbg (fun hd => hv.2 hd _ (List.getElem?_eq_getElem hv'))
    simp only [Op.exec, e, bind, Except.bind, hc] at he
    cases he
    rfl
  | updateMany jobs =>
    obtain ⟨h1, h2⟩ := hv
    have hm := mapM_getState r jobs h1
    have hsane := pairs_sane r jobs h1
    simp only [Op.exec] at he
    rw [hm] at he
    simp only [bind, Except.bind] at he
    rw [updateMany_eq _ hsane] at he
    cases he
    refine imps_foldl _ _ fun p hp => ?_
    obtain ⟨k, hk, e⟩ := List.getElem_of_mem hp
    rw [List.getElem_zip] at e
    obtain ⟨s, es, ep⟩ := pairs_get r jobs h1 (k := k) (by rw [List.length_zip] at hk; omega)
    rw [← e]
    simp only [imps, List.getElem?_map, es, Option.map_some, List.getElem_map]
    rw [List.getElem?_eq_some_iff] at ep
    obtain ⟨_, ep⟩ := ep
    rw [ep]
    exact congrArg some (State.upd_meta _ _).implementation.symm

/-! ### Equal shapes -/

theorem imp_get {ss ss' : List (State a)} (hi : imps ss = imps ss') {i : Nat} {s s' : State a} (h : ss[i]? = some s)
    (h' : ss'[i]? = some s') : s.implementation = s'.implementation := by
  have := congrArg (fun l => l[i]?) hi
  simpa [imps, h, h'] using this

theorem nextImps_alike {op op' : Op Platform} (hal : op.Alike a op') (l : List Platform) : nextImps l op = nextImps l op' := by
  cases op <;> cases op' <;> simp only [Op.Alike] at hal <;> try rfl
  · simp only [nextImps, hal.1]
  · simp only [nextImps, hal]

theorem execT_shape {hs hs' : List Hasher} {ss ss' : List (State a)} (r : Rel (HRel a) hs ss) (r' : Rel (HRel a) hs' ss')
    (p : AllPub hs hs') (hi : imps ss = imps ss') {dbg : Bool} {op op' : Op Platform} (hal : op.Alike a op')
    (hv : op.Valid a dbg hs) (hv' : op'.Valid a dbg hs') :
    ∃ t o log t' o' log', op.execT dbg ss = ret (t, o) log ∧ op'.execT dbg ss' = ret (t', o') log' ∧
      shapes log = shapes log' ∧ Rel (HRel a) (op.next a hs) t ∧ Rel (HRel a) (op'.next a hs') t' ∧ imps t = imps t' := by
  obtain ⟨t, log, e, hr, -⟩ := execT_logs r dbg op hv
  obtain ⟨t', log', e', hr', -⟩ := execT_logs r' dbg op' hv'
  refine ⟨t, _, log, t', _, log', e, e', ?_, hr, hr', ?_⟩
  · have hpub : ∀ {i : Nat} {s s' : State a}, i < hs.length → ss[i]? = some s → ss'[i]? = some s' → Pub s s' := by
      intro i s s' hlt h h'
      have hlt' : i < hs'.length := p.1 ▸ hlt
      obtain ⟨s1, _, e1, r1⟩ := r.get hlt
      obtain ⟨s2, _, e2, r2⟩ := r'.get hlt'
      rw [h] at e1; rw [h'] at e2
      cases e1; cases e2
      exact (p.2 i _ _ (List.getElem?_eq_getElem hlt) (List.getElem?_eq_getElem hlt')).state r1 r2
    cases op <;> cases op' <;> simp only [Op.Alike] at hal
    · rw [lift_ret e, lift_ret e']
    · rw [lift_ret e, lift_ret e']
    · obtain ⟨rfl, hx⟩ := hal
      obtain ⟨s1, g1, e1, r1⟩ := r.get hv
      obtain ⟨s2, g2, e2, r2⟩ := r'.get hv'
      rw [Op.execT, lift_bind g1, bind_ret (State.updateT_eq _ _ _ r1.sane) (l' := []) rfl, List.append_nil] at e
      rw [Op.execT, lift_bind g2, bind_ret (State.updateT_eq _ _ _ r2.sane) (l' := []) rfl, List.append_nil] at e'
      rw [← (ret_inj e).2, ← (ret_inj e').2]
      exact shapes_solo _ ((hpub hv e1 e2).updCalls hx)
    · rename_i js js'
      have hlen : js.length = js'.length := by simpa using congrArg List.length hal
      have hfst : js.map Prod.fst = js'.map Prod.fst := by
        have := congrArg (List.map Prod.fst) hal
        simpa [Function.comp_def] using this
      have hL := pairs_length r js hv.1
      have hL' := pairs_length r' js' hv'.1
      have hLL : (batchOf ss js).length = (batchOf ss' js').length := by omega
      have hitem : ∀ k (hk : k < (batchOf ss js).length) (hk' : k < (batchOf ss' js').length),
          Pub ((batchOf ss js)[k]).1 ((batchOf ss' js')[k]).1 ∧
          ((batchOf ss js)[k]).1.implementation = ((batchOf ss' js')[k]).1.implementation ∧
          ((batchOf ss js)[k]).2.length = ((batchOf ss' js')[k]).2.length := by
        intro k hk hk'
        have hkj : k < js.length := by omega
        have hkj' : k < js'.length := by omega
        obtain ⟨s, es, ep⟩ := pairs_get r js hv.1 hkj
        obtain ⟨s', es', ep'⟩ := pairs_get r' js' hv'.1 hkj'
        rw [List.getElem?_eq_getElem hk] at ep
        rw [List.getElem?_eq_getElem hk'] at ep'
        rw [Option.some.inj ep, Option.some.inj ep']
        have hjk := congrArg (fun l => l[k]?) hal
        simp only [List.getElem?_map, List.getElem?_eq_getElem hkj, List.getElem?_eq_getElem hkj', Option.map_some,
          Option.some.injEq, Prod.mk.injEq] at hjk
        rw [← hjk.1] at es'
        exact ⟨hpub (hv.1 _ (List.getElem_mem hkj)) es es', imp_get hi es es', hjk.2⟩
      rw [Op.execT, lift_bind (mapM_getState r js hv.1), updateManyT_log _ (pairs_sane r js hv.1), relabel_ret] at e
      rw [Op.execT, lift_bind (mapM_getState r' js' hv'.1), updateManyT_log _ (pairs_sane r' js' hv'.1), relabel_ret] at e'
      have f1 := (ret_inj ((bind_ret (l' := []) rfl rfl).symm.trans e)).2
      have f2 := (ret_inj ((bind_ret (l' := []) rfl rfl).symm.trans e')).2
      rw [List.append_nil] at f1 f2
      rw [← f1, ← f2, hfst]
      have himp : updateImp (batchOf ss js) = updateImp (batchOf ss' js') := by
        unfold updateImp
        rw [List.head?_eq_getElem?, List.head?_eq_getElem?]
        by_cases h0 : 0 < (batchOf ss js).length
        · rw [List.getElem?_eq_getElem h0, List.getElem?_eq_getElem (hLL ▸ h0)]
          simp only [Option.map_some, Option.getD_some]
          exact (hitem 0 h0 (hLL ▸ h0)).2.1
        · rw [List.getElem?_eq_none (by omega), List.getElem?_eq_none (by omega)]
      rw [himp]
      refine shapes_run_congr hLL _ _ (fun k => ?_) _ _ _ (fun k => (js'.map Prod.fst).getD k 0)
      obtain ⟨h1, _, h3⟩ := hitem k.val k.2 (hLL ▸ k.2)
      exact h1.updatePull h3
    · obtain ⟨rfl, hx⟩ := hal
      obtain ⟨s1, g1, e1, r1⟩ := r.get hv
      obtain ⟨s2, g2, e2, r2⟩ := r'.get hv'
      rw [Op.execT, lift_bind g1, bind_ret (State.updateT_eq _ _ _ r1.sane) (l' := []) rfl, List.append_nil] at e
      rw [Op.execT, lift_bind g2, bind_ret (State.updateT_eq _ _ _ r2.sane) (l' := []) rfl, List.append_nil] at e'
      rw [← (ret_inj e).2, ← (ret_inj e').2]
      exact shapes_solo _ ((hpub hv e1 e2).updCalls hx)
    · rw [lift_ret e, lift_ret e']
    · rw [lift_ret e, lift_ret e']
    · subst hal
      obtain ⟨s1, g1, e1, r1⟩ := r.get hv
      obtain ⟨s2, g2, e2, r2⟩ := r'.get hv'
      have hp := hpub hv e1 e2
      rw [Op.execT, lift_bind g1] at e
      rw [Op.execT, lift_bind g2] at e'
      have f1 := State.finalizeT_eq (a := a) (ι := Nat) ‹Nat› s1 r1.sane
      have f2 := State.finalizeT_eq (a := a) (ι := Nat) ‹Nat› s2 r2.sane
      have n1 := finalizeT_erase (a := a) (ι := Nat) ‹Nat› s1
      have n2 := finalizeT_erase (a := a) (ι := Nat) ‹Nat› s2
      rw [r1.finalize, f1, erase_ret] at n1
      rw [r2.finalize, f2, erase_ret] at n2
      rw [Except.ok.injEq] at n1 n2
      rw [n1] at f1
      rw [n2] at f2
      rw [bind_ret f1 (l' := []) (lift_bind (asBytes_config r1.2.2.2.2 _)), List.append_nil] at e
      rw [bind_ret f2 (l' := []) (lift_bind (asBytes_config r2.2.2.2.2 _)), List.append_nil] at e'
      rw [← (ret_inj e).2, ← (ret_inj e').2, hp.lastNode, hp.count, hp.buflen]
      refine shapes_solo _ (absorbCalls_shape _ _ _ _ _ _ _ (Nat.le_refl _) ?_)
      rw [List.length_take, List.length_take, hp.bufLength]
    · rw [lift_ret e, lift_ret e']
  · have h1 := execT_erase dbg ss op
    rw [e, erase_ret] at h1
    have h2 := execT_erase dbg ss' op'
    rw [e', erase_ret] at h2
    rw [exec_imps r hv h1.symm, exec_imps r' hv' h2.symm, hi, nextImps_alike hal]

theorem execAllT_shape {hs hs' : List Hasher} {ss ss' : List (State a)} (r : Rel (HRel a) hs ss) (r' : Rel (HRel a) hs' ss')
    (p : AllPub hs hs') (hi : imps ss = imps ss') {dbg : Bool} {ops ops' : List (Op Platform)} (hal : AlikeHistory a ops ops')
    (hv : ValidHistory a dbg hs ops) (hv' : ValidHistory a dbg hs' ops') :
    ∃ t out t' out', execAllT dbg ss ops = .ok (t, out) ∧ execAllT dbg ss' ops' = .ok (t', out') ∧
      out.map (fun o => shapes o.2) = out'.map (fun o => shapes o.2) := by
  induction ops generalizing ops' hs hs' ss ss' with
  | nil =>
    cases ops' with
    | nil => exact ⟨ss, [], ss', [], rfl, rfl, rfl⟩
    | cons op' ops' => exact hal.elim
  | cons op ops ih =>
    cases ops' with
    | nil => exact hal.elim
    | cons op' ops' =>
      obtain ⟨t, o, log, t', o', log', e, e', hs1, q, q', hi'⟩ := execT_shape r r' p hi hal.1 hv.1 hv'.1
      obtain ⟨u, out, u', out', f, f', hs2⟩ := ih q q' (p.next hal.1) hi' hal.2 hv.2 hv'.2
      refine ⟨u, (o, log) :: out, u', (o', log') :: out', ?_, ?_, ?_⟩
      · simp only [execAllT, e, Traced.ret, f, bind, Except.bind]
      · simp only [execAllT, e', Traced.ret, f', bind, Except.bind]
      · rw [List.map_cons, List.map_cons, hs1, hs2]

end Blake2
