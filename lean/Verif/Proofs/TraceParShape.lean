import Verif.Proofs.TraceParHistory
/-! # Tree states: the log apart from the blocks depends on lengths only, and the lanes are kept full -/
namespace Blake2
open Spec Traced

variable {a : Alg}

/-! ## Even batches -/

namespace Sched
variable {ι C : Type}

theorem fill_even (pull : Pull ι C) (cs : ι → List C) (hp : ∀ i, pull i = ([], some (cs i))) (N : Nat) (q : List ι)
    (v : List (ι × List C)) (h : N ≤ v.length + q.length) :
    (fill pull N q v).2.1 = q.drop (N - v.length) ∧
    (fill pull N q v).2.2 = v ++ (q.take (N - v.length)).map fun i => (i, cs i) := by
  induction q generalizing v with
  | nil =>
    have : N - v.length = 0 := by simp at h; omega
    simp [fill]
  | cons i q ih =>
    rw [fill]
    split
    · rename_i hlt
      obtain ⟨h1, h2⟩ := ih (v ++ [(i, cs i)]) (by simp at h ⊢; omega)
      simp only [hp]
      have e : N - v.length = (N - (v ++ [(i, cs i)]).length) + 1 := by simp; omega
      rw [h1, h2, e]
      simp
    · rename_i hlt
      have : N - v.length = 0 := by omega
      simp [this]

theorem wide_even {N m : Nat} (hN : 0 < N) (v : List (ι × List C)) (hv : v.length = N) (hm : ∀ p ∈ v, p.2.length = m) :
    (wide N v).2 = [] := by
  have ht : v.take N = v := List.take_of_length_le (by omega)
  have hs : shortest v = m := by
    unfold shortest
    have : v.map (fun p => p.2.length) = List.replicate N m := by
      rw [List.eq_replicate_iff]
      refine ⟨by simp [hv], fun b hb => ?_⟩
      obtain ⟨p, hp, rfl⟩ := List.mem_map.1 hb
      exact hm p hp
    rw [this, List.min?_replicate, if_neg (by omega)]
    rfl
  simp only [wide, ht, hs]
  rw [List.drop_eq_nil_of_le (by omega), List.append_nil, List.filter_eq_nil_iff]
  intro p hp
  obtain ⟨q, hq, rfl⟩ := List.mem_map.1 hp
  simp [hm q hq]

theorem levelIter_even (pull : Pull ι C) (cs : ι → List C) (hp : ∀ i, pull i = ([], some (cs i))) {m : Nat}
    (hm : ∀ i, (cs i).length = m) {N : Nat} (hN : 0 < N) (c fuel : Nat) (q : List ι) (hq : q.length = c * N) (hf : c < fuel) :
    (levelIter pull N fuel q []).2 = ([], []) := by
  induction c generalizing fuel q with
  | zero =>
    have : q = [] := List.eq_nil_of_length_eq_zero (by omega)
    subst this
    cases fuel with
    | zero => rfl
    | succ fuel => simp [levelIter, fill, hN]
  | succ c ih =>
    cases fuel with
    | zero => omega
    | succ fuel =>
      rw [Nat.add_mul, Nat.one_mul] at hq
      obtain ⟨h1, h2⟩ := fill_even pull cs hp N q [] (by simp; omega)
      have hl : (fill pull N q []).2.2.length = N := by rw [h2]; simp; omega
      simp only [levelIter]
      rw [if_neg (by omega)]
      have hw := wide_even hN (fill pull N q []).2.2 hl (m := m) (by
        rw [h2]
        intro p hp'
        simp only [List.nil_append, List.mem_map] at hp'
        obtain ⟨i, _, rfl⟩ := hp'
        exact hm i)
      simp only [hw, h1]
      exact ih _ _ (by simp; omega) (by omega)

theorem level_even (pull : Pull ι C) (cs : ι → List C) (hp : ∀ i, pull i = ([], some (cs i))) {m : Nat}
    (hm : ∀ i, (cs i).length = m) {N degree : Nat} (hN : 0 < N) (hd : N ≤ degree) (c : Nat) (q : List ι)
    (hq : q.length = c * N) : (level pull degree N q []).2 = ([], []) := by
  unfold level
  rw [if_pos hd]
  refine levelIter_even pull cs hp hm hN c _ q hq ?_
  have : c * 1 ≤ c * N := Nat.mul_le_mul_left _ hN
  simp; omega

theorem level_nil (pull : Pull ι C) {N : Nat} (degree : Nat) (hN : 0 < N) : level pull degree N [] [] = ([], [], []) := by
  unfold level
  split
  · simp [levelIter, fill, hN]
  · rfl

end Sched

/-- A batch in which all leaves have equally much to do uses all lanes the platform has. -/
theorem batchLog_even (imp : Platform) (calls : Fin (parDegree a) → List (Call a)) {m : Nat} (hm : ∀ i, (calls i).length = m) :
    ∀ p ∈ batchLog a imp calls, p.length = implDegree a imp := by
  have key : ∀ p ∈ Sched.run (fun i => (([] : List (Call a)), some (calls i))) (implDegree a imp) (hiDegree a) (loDegree a)
      (List.finRange (parDegree a)), p.length = implDegree a imp := by
    have h0 : 0 < hiDegree a := by cases a <;> decide
    have h1 : 0 < loDegree a := by cases a <;> decide
    intro p hp
    simp only [Sched.run] at hp
    by_cases hhi : hiDegree a ≤ implDegree a imp
    · have he := Sched.level_even (fun i => (([] : List (Call a)), some (calls i))) calls (fun _ => rfl) hm h0 hhi 1
        (List.finRange (parDegree a)) (by rw [List.length_finRange]; cases a <;> decide)
      rw [he] at hp
      simp only [Sched.level_nil _ _ h1, Sched.runVec, Sched.runQueue, List.flatMap_nil, List.append_nil] at hp
      unfold Sched.level at hp
      rw [if_pos hhi] at hp
      rw [Sched.levelIter_wide _ (fun _ => rfl) _ _ _ p hp]
      revert hhi
      cases a <;> cases imp <;> decide
    · have hn : Sched.level (fun i => (([] : List (Call a)), some (calls i))) (implDegree a imp) (hiDegree a)
          (List.finRange (parDegree a)) [] = ([], List.finRange (parDegree a), []) := by
        unfold Sched.level
        rw [if_neg hhi]
      rw [hn] at hp
      simp only [List.nil_append] at hp
      by_cases hlo : loDegree a ≤ implDegree a imp
      · have he := Sched.level_even (fun i => (([] : List (Call a)), some (calls i))) calls (fun _ => rfl) hm h1 hlo 2
          (List.finRange (parDegree a)) (by rw [List.length_finRange]; cases a <;> decide)
        rw [he] at hp
        simp only [Sched.runVec, Sched.runQueue, List.flatMap_nil, List.append_nil] at hp
        unfold Sched.level at hp
        rw [if_pos hlo] at hp
        rw [Sched.levelIter_wide _ (fun _ => rfl) _ _ _ p hp]
        revert hhi hlo
        cases a <;> cases imp <;> decide
      · have hn : Sched.level (fun i => (([] : List (Call a)), some (calls i))) (implDegree a imp) (loDegree a)
            (List.finRange (parDegree a)) [] = ([], List.finRange (parDegree a), []) := by
          unfold Sched.level
          rw [if_neg hlo]
        rw [hn] at hp
        simp only [Sched.runVec, Sched.runQueue, List.flatMap_nil, List.nil_append, List.mem_flatMap, Sched.solo, List.map_nil,
          Option.getD_some, List.mem_map] at hp
        obtain ⟨i, _, c, _, rfl⟩ := hp
        rw [List.length_singleton]
        clear hn
        revert hhi hlo
        cases a <;> cases imp <;> decide
  intro p hp
  obtain ⟨q, hq, rfl⟩ := List.mem_map.1 hp
  rw [List.length_map]
  exact key q hq

theorem stripeLog_even (imp : Platform) (D : List Byte) (k m : Nat) :
    ∀ p ∈ stripeLog a imp D k m, p.length = implDegree a imp := by
  unfold stripeLog
  split
  · intro p hp; cases hp
  · refine batchLog_even imp _ (m := m) (fun i => ?_)
    rw [stripeCalls, List.length_drop, leading_length]; omega

theorem updLog_even (l : Ledger) (x : List Byte) : ∀ p ∈ l.updLog a x, p.length = implDegree a l.plat := by
  intro p hp
  rcases List.mem_append.1 hp with h | h <;> exact stripeLog_even _ _ _ _ p h

/-! ## Two runs -/

theorem gather_length_congr (P : Nat) (hP : 0 < P) (x y : List Byte) (h : x.length = y.length) :
    (gather a P hP x).length = (gather a P hP y).length := by
  induction hn : x.length using Nat.strongRecOn generalizing x y with
  | _ n ih =>
    subst hn
    rw [gather]
    conv => rhs; rw [gather]
    rw [← h]
    split
    · rw [List.length_take, List.length_take, h]
    · rw [List.length_append, List.length_append, List.length_take, List.length_take, ← h,
        ih (x.drop P).length (by rw [List.length_drop]; omega) (x.drop P) (y.drop P) (by rw [List.length_drop, List.length_drop, h]) rfl]

theorem leaf_length_congr (i : Nat) (D D' : List Byte) (h : D.length = D'.length) :
    (leaf a i D).length = (leaf a i D').length :=
  gather_length_congr _ _ _ _ (by rw [List.length_drop, List.length_drop, h])

theorem leading_shape (D D' : List Byte) (k : Nat) : (leading a D k).map Call.shape = (leading a D' k).map Call.shape := by
  simp [leading, Call.shape]

theorem stripeLog_shape (imp : Platform) (D D' : List Byte) (k m : Nat) :
    shapes (stripeLog a imp D k m) = shapes (stripeLog a imp D' k m) := by
  unfold stripeLog
  split
  · rfl
  · refine batchLog_shape _ _ _ fun i => ?_
    unfold stripeCalls
    rw [List.map_drop, List.map_drop, leading_shape]

namespace Ledger

/-- What of a ledger the log depends on. -/
def pub (a : Alg) (l : Ledger) : Platform × Nat × Nat := (l.plat, l.done, (l.data a).length)

/-- `feed` on that. -/
def feedPub (a : Alg) (n : Nat) (p : Platform × Nat × Nat) : Platform × Nat × Nat :=
  (p.1, p.2.1 + PState.due1 a (p.2.2 - p.2.1 * stripe a) n + PState.due2 a (p.2.2 - p.2.1 * stripe a) n, p.2.2 + n)

theorem pub_feed (x : List Byte) (l : Ledger) : (l.feed a x).pub a = feedPub a x.length (l.pub a) := by
  have hd : (l.feed a x).data a = l.data a ++ x := (List.append_assoc ..).symm
  simp only [pub, hd, feedPub, List.length_append]
  rfl

theorem updLog_shape {l l' : Ledger} (h : l.pub a = l'.pub a) {x y : List Byte} (hx : x.length = y.length) :
    shapes (l.updLog a x) = shapes (l'.updLog a y) := by
  simp only [pub, Prod.mk.injEq] at h
  obtain ⟨h1, h2, h3⟩ := h
  unfold updLog bufLen
  rw [shapes_append, shapes_append, h1, h2, h3, hx, stripeLog_shape _ (l.data a ++ x) (l'.data a ++ y), stripeLog_shape _ (l.data a ++ x) (l'.data a ++ y)]

end Ledger

theorem root_length (h : PHasher) : ((List.range (Spec.degree a)).flatMap fun i =>
      Spec.hashFull a (Spec.leafConfig a h.config.hashLength h.config.key i) (Spec.leafMsg a h.msg i)).length =
    ((List.range (Spec.degree a)).map fun _ => a.outbytes).sum := by
  rw [List.length_flatMap]
  congr 1
  apply List.map_congr_left
  intro i _
  rw [hashFull, wordsToBytes_length]

theorem finLog_shape {l l' : Ledger} (h : l.pub a = l'.pub a) (hk : l.hasher.config.key.length ≤ maxOut a)
    (hk' : l'.hasher.config.key.length ≤ maxOut a) : shapes (l.finLog a) = shapes (l'.finLog a) := by
  simp only [Ledger.pub, Prod.mk.injEq] at h
  obtain ⟨h1, h2, h3⟩ := h
  unfold Ledger.finLog
  rw [shapes_append, shapes_append, h1]
  refine congr (congrArg _ ?_) ?_
  · refine batchLog_shape _ _ _ fun i => ?_
    unfold Ledger.data at h3
    rw [List.map_drop, List.map_drop, calls_leaf hk, calls_leaf hk', h2,
      rfcCalls_shape _ _ (leaf_length_congr i.val _ _ h3)]
  · refine shapes_solo _ ?_
    exact rfcCalls_shape _ _ ((root_length l.hasher).trans (root_length l'.hasher).symm) true

theorem keyStripe_congr {key key' : List Byte} (h : key.length = key'.length) :
    (keyStripe a key).length = (keyStripe a key').length := by
  unfold keyStripe
  simp only [nil_iff_of_length h]
  split
  · rfl
  · simp [pad, h]

theorem map_modify_congr {α β : Type} (f : α → β) (g g' : α → α) (u : β → β) (h : ∀ x, f (g x) = u (f x))
    (h' : ∀ x, f (g' x) = u (f x)) {l l' : List α} (e : l.map f = l'.map f) (i : Nat) :
    (l.modify i g).map f = (l'.modify i g').map f := by
  rw [map_modify f g u h, map_modify f g' u h', e]

theorem nextL_pub {op op' : POp Platform} (hal : op.Alike a op') {ls ls' : List Ledger}
    (p : ls.map (Ledger.pub a) = ls'.map (Ledger.pub a)) :
    (POp.nextL a ls op).map (Ledger.pub a) = (POp.nextL a ls' op').map (Ledger.pub a) := by
  cases op <;> cases op' <;> simp only [POp.Alike] at hal
  · simp only [POp.nextL, List.map_append, p, List.map_cons, List.map_nil, Ledger.pub, Ledger.data, List.append_nil,
      keyStripe_congr hal.2, hal.1]
  · subst hal
    rename_i i
    have := congrArg (fun l => l[i]?.toList) p
    simp only [List.getElem?_map] at this
    simp only [POp.nextL, List.map_append, p]
    congr 1
    cases h1 : ls[i]? <;> cases h2 : ls'[i]? <;> simp_all
  · obtain ⟨rfl, h⟩ := hal
    exact map_modify_congr _ _ _ (Ledger.feedPub a _) (Ledger.pub_feed _) (fun l => by rw [Ledger.pub_feed, h]) p _
  · obtain ⟨rfl, h⟩ := hal
    exact map_modify_congr _ _ _ (Ledger.feedPub a _) (Ledger.pub_feed _) (fun l => by rw [Ledger.pub_feed, h]) p _
  · exact p
  · exact p
  · exact p

theorem shapes_pair_congr {κ : Type} (i : Nat) {l l' : List (Pass a κ)} (h : shapes l = shapes l') :
    shapes (rename (fun n => (i, n)) l) = shapes (rename (fun n => (i, n)) l') := by
  rw [shapes_rename, shapes_rename]
  exact congrArg (List.map fun p => p.map fun c => ((i, c.1), c.2)) h

theorem plan_shape {op op' : POp Platform} (hal : op.Alike a op') {ls ls' : List Ledger} {ss ss' : List (PState a)}
    (r : Rel (LRel a) ls ss) (r' : Rel (LRel a) ls' ss') (p : ls.map (Ledger.pub a) = ls'.map (Ledger.pub a)) :
    shapes (POp.plan a ls op) = shapes (POp.plan a ls' op') := by
  have hpub : ∀ {i : Nat} {l l'}, ls[i]? = some l → ls'[i]? = some l' → l.pub a = l'.pub a := by
    intro i l l' h h'
    have := congrArg (fun l => l[i]?) p
    simpa [h, h'] using this
  have hnone : ∀ {i : Nat}, ls[i]? = none ↔ ls'[i]? = none := by
    intro i
    have := congrArg List.length p
    simp only [List.length_map] at this
    simp [this]
  have hcase : ∀ (i : Nat) (f f' : Ledger → List (Pass a (Node a))),
      (∀ l l', ls[i]? = some l → ls'[i]? = some l' → shapes (f l) = shapes (f' l')) →
      shapes (ls[i]?.toList.flatMap fun l => rename (fun n => (i, n)) (f l)) =
        shapes (ls'[i]?.toList.flatMap fun l => rename (fun n => (i, n)) (f' l)) := by
    intro i f f' h
    cases h1 : ls[i]? with
    | none => rw [hnone.1 h1]; rfl
    | some l =>
      cases h2 : ls'[i]? with
      | none => rw [hnone.2 h2] at h1; cases h1
      | some l' =>
        simp only [Option.toList_some, List.flatMap_cons, List.flatMap_nil, List.append_nil]
        exact shapes_pair_congr i (h l l' h1 h2)
  cases op <;> cases op' <;> simp only [POp.Alike] at hal
  · rfl
  · rfl
  · obtain ⟨rfl, h⟩ := hal
    exact hcase _ _ _ fun l l' h1 h2 => Ledger.updLog_shape (hpub h1 h2) h
  · obtain ⟨rfl, h⟩ := hal
    exact hcase _ _ _ fun l l' h1 h2 => Ledger.updLog_shape (hpub h1 h2) h
  · rfl
  · subst hal
    refine hcase _ _ _ fun l l' h1 h2 => ?_
    obtain ⟨_, q⟩ := r.getL h1
    obtain ⟨_, q'⟩ := r'.getL h2
    exact finLog_shape (hpub h1 h2) q.keyLe q'.keyLe
  · rfl

theorem panswers_length (hs : List PHasher) (ops : List (POp Platform)) : (panswers a hs ops).length = ops.length := by
  induction ops generalizing hs with
  | nil => rfl
  | cons op ops ih => simp [panswers, ih]

theorem planAll_length (ls : List Ledger) (ops : List (POp Platform)) : (planAll a ls ops).length = ops.length := by
  induction ops generalizing ls with
  | nil => rfl
  | cons op ops ih => simp [planAll, ih]

theorem planAll_shape {ls ls' : List Ledger} {ss ss' : List (PState a)} (r : Rel (LRel a) ls ss) (r' : Rel (LRel a) ls' ss')
    (p : ls.map (Ledger.pub a) = ls'.map (Ledger.pub a)) {dbg : Bool} {ops ops' : List (POp Platform)}
    (hal : AlikePHistory a ops ops') (hv : ValidPHistory a dbg (ls.map Ledger.hasher) ops)
    (hv' : ValidPHistory a dbg (ls'.map Ledger.hasher) ops') :
    (planAll a ls ops).map shapes = (planAll a ls' ops').map shapes := by
  induction ops generalizing ops' ls ls' ss ss' with
  | nil =>
    cases ops' with
    | nil => rfl
    | cons op' ops' => exact hal.elim
  | cons op ops ih =>
    cases ops' with
    | nil => exact hal.elim
    | cons op' ops' =>
      obtain ⟨s1, _, r1⟩ := pexecT_plan r dbg op hv.1
      obtain ⟨s2, _, r2⟩ := pexecT_plan r' dbg op' hv'.1
      have hv2 := hv.2
      have hv2' := hv'.2
      rw [← nextL_hashers] at hv2 hv2'
      simp only [planAll, List.map_cons]
      rw [plan_shape hal.1 r r' p, ih r1 r2 (nextL_pub hal.1 p) hal.2 hv2 hv2']

theorem phashLog_shape (imp : Platform) {c c' : PConfig} (hk : c.key.length ≤ maxOut a) (hk' : c'.key.length ≤ maxOut a)
    (h : c.key.length = c'.key.length) {msg msg' : List Byte} (hm : msg.length = msg'.length) :
    shapes (phashLog a imp c msg) = shapes (phashLog a imp c' msg') := by
  have h0 : (Ledger.mk { config := c, msg := [] } 0 imp).pub a = (Ledger.mk { config := c', msg := [] } 0 imp).pub a := by
    simp only [Ledger.pub, Ledger.data, List.append_nil, keyStripe_congr h]
  unfold phashLog
  simp only [nil_iff_of_length h]
  split
  · refine finLog_shape ?_ hk hk'
    simp only [Ledger.pub, Ledger.data, List.length_append, keyStripe_congr h, hm]
  · rw [shapes_append, shapes_append, Ledger.updLog_shape h0 hm, finLog_shape (l := Ledger.feed a msg { hasher := { config := c, msg := [] }, done := 0, plat := imp })
      (l' := Ledger.feed a msg' { hasher := { config := c', msg := [] }, done := 0, plat := imp }) ?_ hk hk']
    rw [Ledger.pub_feed, Ledger.pub_feed, h0, hm]

/-! ## Reachable states -/

/-- Every state a client can reach has a ledger. -/
theorem PReachable.ledger {s : PState a} (h : PReachable s) : ∃ l, LRel a l s := by
  obtain ⟨dbg, ops, ss, os, hv, he, hs⟩ := h
  suffices hall : ∀ (ops : List (POp Platform)) (ls : List Ledger) (ss : List (PState a)) (ss' : List (PState a)) (os : List Obs),
      Rel (LRel a) ls ss → ValidPHistory a dbg (ls.map Ledger.hasher) ops → pexecAll dbg ss ops = .ok (ss', os) →
      ∃ ls', Rel (LRel a) ls' ss' by
    obtain ⟨ls', r⟩ := hall ops [] [] ss os rel_nil hv he
    obtain ⟨i, hi, rfl⟩ := List.getElem_of_mem hs
    exact ⟨_, r.2 i (by rw [← r.1]; exact hi) hi⟩
  clear hs he hv
  intro ops
  induction ops with
  | nil => intro ls ss ss' os r _ he; cases he; exact ⟨ls, r⟩
  | cons op ops ih =>
    intro ls ss ss' os r hv he
    obtain ⟨s1, e1, r1⟩ := pexecT_plan r dbg op hv.1
    have hv2 := hv.2
    rw [← nextL_hashers] at hv2
    have e := pexecT_erase dbg ss op
    rw [e1, erase_ret] at e
    simp only [pexecAll, ← e, bind, Except.bind] at he
    cases h2 : pexecAll dbg s1 ops with
    | error f => rw [h2] at he; cases he
    | ok q =>
      obtain ⟨s2, os2⟩ := q
      rw [h2] at he
      cases he
      exact ih _ _ _ _ r1 hv2 h2

end Blake2
