import Verif.Proofs.TraceShape
/-! # The compressions of a whole `hash_many` session -/
namespace Blake2
open Traced Spec

variable {a : Alg}

/-- The job `HashManyJob::new` makes. -/
def newJob (p : Params a) (x : List Byte) : HashManyJob a :=
  if 0 < p.keyLength.toNat then
    { words := absorb a .Serial x.isEmpty p.lastNode p.toWords 0 p.keyBlock, count := BitVec.ofNat (2 * a.w) a.bb,
      lastNode := p.lastNode, hashLength := p.hashLength, input := x, finished := x.isEmpty,
      implementation := p.implementation }
  else
    { words := p.toWords, count := 0, lastNode := p.lastNode, hashLength := p.hashLength, input := x, finished := false,
      implementation := p.implementation }

/-- The calls `HashManyJob::new` makes. -/
def newCalls (p : Params a) (x : List Byte) : List (Call a) :=
  if 0 < p.keyLength.toNat then absorbCalls a .Serial x.isEmpty p.lastNode 0 p.keyBlock else []

theorem newT_eq {c : Config} {p : Params a} (h : Rep a c p) {ι : Type} (who : ι) (x : List Byte) :
    HashManyJob.newT who p x = ret (newJob p x) (solo who (newCalls p x)) := by
  unfold newJob newCalls
  by_cases hp : 0 < p.keyLength.toNat
  · rw [if_pos hp, if_pos hp]
    apply newT_keyed p who x hp
    have hk : p.keyBlock.length = a.bb := by rw [h.keyBlock, pad_length _ _ h.key_le]
    by_cases hx : x = []
    · subst hx; exact .inl rfl
    · refine .inr ⟨?_, by rw [hk]; exact Nat.mod_self _⟩
      intro h0
      rw [h0] at hk
      have := bb_pos a
      simp at hk; omega
  · rw [if_neg hp, if_neg hp]
    unfold HashManyJob.newT
    simp only [gt_iff_lt, hp, if_false]
    rw [pure_bind']
    rfl

theorem newCalls_eq {c : Config} {p : Params a} (h : Rep a c p) (x : List Byte) :
    newCalls p x ++ (hashPull (newJob p x)).2.getD [] = rfcCalls a (keyedData a c.key x) c.lastNode := by
  obtain ⟨j, cs, h1, _, h3⟩ := newT_log h () x
  rw [newT_eq h] at h1
  obtain ⟨rfl, h4⟩ := ret_inj h1
  have := congrArg (callsOf ()) h4
  rw [callsOf_solo, callsOf_solo] at this
  rw [this]; exact h3

theorem newJob_count {c : Config} {p : Params a} (h : Rep a c p) (x : List Byte) : (newJob p x).count.toNat % a.bb = 0 := by
  obtain ⟨j, e, hc, _⟩ := hashManyJob_new h x
  have := newT_erase () p x
  rw [newT_eq h, erase_ret, e] at this
  cases this
  exact hc

theorem newAll_eq (items : List (Params a × List Byte)) (h : ∀ q ∈ items, ∃ c, Rep a c q.1) (n : Nat) :
    ((items.zipIdx n).mapM fun q => HashManyJob.newT q.2 q.1.1 q.1.2 : Traced a Nat _) =
      ret (items.map fun q => newJob q.1 q.2) ((items.zipIdx n).flatMap fun q => solo q.2 (newCalls q.1.1 q.1.2)) := by
  induction items generalizing n with
  | nil => rfl
  | cons q qs ih =>
    obtain ⟨c, hc⟩ := h q (by simp)
    rw [List.zipIdx_cons, List.mapM_cons, List.map_cons, List.flatMap_cons]
    refine bind_ret (newT_eq hc n q.2) ?_
    refine (bind_ret (ih (fun r hr => h r (by simp [hr])) (n + 1)) (l' := []) rfl).trans ?_
    rw [List.append_nil]

theorem mine_created (items : List (Params a × List Byte)) (n i : Nat) :
    callsOf i ((items.zipIdx n).flatMap fun q => solo q.2 (newCalls q.1.1 q.1.2)) =
      if n ≤ i then ((items[i - n]?).map fun q => newCalls q.1 q.2).getD [] else [] := by
  induction items generalizing n with
  | nil => simp; rfl
  | cons q qs ih =>
    rw [List.zipIdx_cons, List.flatMap_cons, callsOf_eq_mine, Sched.mine_append, ← callsOf_eq_mine, ← callsOf_eq_mine, ih]
    by_cases hni : n = i
    · subst hni
      rw [callsOf_solo, if_neg (by omega), if_pos (Nat.le_refl _)]
      simp
    · rw [callsOf_solo_ne hni, List.nil_append]
      by_cases hlt : n ≤ i
      · rw [if_pos hlt, if_pos (by omega)]
        have : i - n = (i - (n + 1)) + 1 := by omega
        rw [this, List.getElem?_cons_succ]
      · rw [if_neg hlt, if_neg (by omega)]

theorem created_lanes (items : List (Params a × List Byte)) (n : Nat) :
    ∀ p ∈ (items.zipIdx n).flatMap (fun q => solo q.2 (newCalls q.1.1 q.1.2)), (p.map Prod.fst).Nodup ∧ p.length = 1 := by
  intro p hp
  obtain ⟨q, _, hq⟩ := List.mem_flatMap.1 hp
  have := solo_lanes _ _ p hq
  refine ⟨by rw [this]; simp, ?_⟩
  have h2 := congrArg List.length this
  simpa using h2

/-! ## The whole session -/

/-- The parameters of the requests. -/
def itemsOf (reqs : List (Platform × List Setter × List Byte)) : Res (List (Params a × List Byte)) :=
  reqs.mapM fun q => do
    let p ← (Params.new a q.1).build q.2.1
    .ok (p, q.2.2)

theorem itemsOf_ok (reqs : List (Platform × List Setter × List Byte)) (h : ∀ q ∈ reqs, ∀ x ∈ q.2.1, x.InRange a) :
    ∃ items, itemsOf (a := a) reqs = .ok items ∧ items.length = reqs.length ∧
      ∀ (i : Nat) (q : Platform × List Setter × List Byte), reqs[i]? = some q →
        ∃ p, items[i]? = some (p, q.2.2) ∧ Rep a (configOf a q.2.1) p ∧ p.implementation = q.1 := by
  unfold itemsOf
  induction reqs with
  | nil => exact ⟨[], rfl, rfl, by simp⟩
  | cons q qs ih =>
    obtain ⟨p, e, hr, hi⟩ := rep_build (rep_new a q.1) q.2.1 (h q (by simp))
    obtain ⟨items, e2, hl, hg⟩ := ih (fun r hr => h r (by simp [hr]))
    refine ⟨(p, q.2.2) :: items, ?_, by simp [hl], ?_⟩
    · rw [List.mapM_cons, e2, e]; rfl
    · intro i r hr'
      cases i with
      | zero =>
        simp only [List.getElem?_cons_zero, Option.some.injEq] at hr'
        subst hr'
        exact ⟨p, rfl, hr, hi⟩
      | succ i =>
        rw [List.getElem?_cons_succ] at hr' ⊢
        exact hg i r hr'

theorem hashAllT_log (reqs : List (Platform × List Setter × List Byte)) (h : ∀ q ∈ reqs, ∀ x ∈ q.2.1, x.InRange a) :
    ∃ items, itemsOf (a := a) reqs = .ok items ∧ items.length = reqs.length ∧
      (∀ (i : Nat) (q : Platform × List Setter × List Byte), reqs[i]? = some q →
        ∃ p, items[i]? = some (p, q.2.2) ∧ Rep a (configOf a q.2.1) p ∧ p.implementation = q.1) ∧
      hashAllT reqs = ret ((items.map fun q => newJob q.1 q.2).map HashManyJob.done)
        ((items.zipIdx.flatMap fun q => solo q.2 (newCalls q.1.1 q.1.2)) ++
          rename Fin.val (Sched.run (fun i : Fin (items.map fun q => newJob q.1 q.2).length =>
              hashPull (items.map fun q => newJob q.1 q.2)[i])
            (implDegree a (hashImp (items.map fun q => newJob q.1 q.2))) (hiDegree a) (loDegree a) (List.finRange _))) := by
  obtain ⟨items, e, hl, hg⟩ := itemsOf_ok (a := a) reqs h
  have hrep : ∀ q ∈ items, ∃ c, Rep a c q.1 := by
    intro q hq
    obtain ⟨i, hi, rfl⟩ := List.getElem_of_mem hq
    have hi' : i < reqs.length := by omega
    obtain ⟨p, hp, hr, _⟩ := hg i _ (List.getElem?_eq_getElem hi')
    rw [List.getElem?_eq_getElem hi] at hp
    rw [Option.some.inj hp]
    exact ⟨_, hr⟩
  refine ⟨items, e, hl, hg, ?_⟩
  unfold hashAllT
  have e' := e
  unfold itemsOf at e'
  rw [lift_bind e']
  refine bind_ret (newAll_eq items hrep 0) ?_
  rw [hashManyT_log, relabel_ret]
  · rfl
  · intro j hj
    obtain ⟨q, hq, rfl⟩ := List.mem_map.1 hj
    obtain ⟨c, hc⟩ := hrep q hq
    exact newJob_count hc q.2

/-! ## Shapes -/

theorem rfcCalls_shape (D D' : List Byte) (h : D.length = D'.length) (ln : Bool) :
    (rfcCalls a D ln).map Call.shape = (rfcCalls a D' ln).map Call.shape := by
  rw [rfcCalls_eq, rfcCalls_eq, h]
  simp [leading, Call.shape]

/-- Two items that look alike from outside. -/
structure PubP (q q' : Params a × List Byte) : Prop where
  keyLength : q.1.keyLength.toNat = q'.1.keyLength.toNat
  keyBlock : q.1.keyBlock.length = q'.1.keyBlock.length
  lastNode : q.1.lastNode = q'.1.lastNode
  implementation : q.1.implementation = q'.1.implementation
  input : q.2.length = q'.2.length

theorem isEmpty_congr {α : Type} {x y : List α} (h : x.length = y.length) : x.isEmpty = y.isEmpty := by
  cases x <;> cases y <;> simp_all

theorem PubP.newCalls {q q' : Params a × List Byte} (h : PubP q q') :
    (newCalls q.1 q.2).map Call.shape = (newCalls q'.1 q'.2).map Call.shape := by
  unfold Blake2.newCalls
  rw [h.keyLength, isEmpty_congr h.input, h.lastNode]
  split
  · exact absorbCalls_shape _ _ _ _ _ _ _ (Nat.le_refl _) h.keyBlock
  · rfl

theorem PubP.hashPull {q q' : Params a × List Byte} (h : PubP q q') :
    ((hashPull (newJob q.1 q.2)).1.map Call.shape, (hashPull (newJob q.1 q.2)).2.map (List.map Call.shape)) =
      ((hashPull (newJob q'.1 q'.2)).1.map Call.shape, (hashPull (newJob q'.1 q'.2)).2.map (List.map Call.shape)) := by
  unfold Blake2.hashPull newJob
  rw [h.keyLength, isEmpty_congr h.input, h.lastNode]
  by_cases hk : 0 < q'.1.keyLength.toNat
  · simp only [if_pos hk]
    by_cases he : q'.2.isEmpty = true
    · simp [he]
    · simp only [if_neg he, Option.map_some]
      rw [absorbCalls_shape _ _ _ _ _ _ _ (Nat.le_refl _) h.input]
  · simp only [if_neg hk, Bool.false_eq_true, if_false, Option.map_some]
    rw [absorbCalls_shape _ _ _ _ _ _ _ (Nat.le_refl _) h.input]

theorem newJob_implementation (p : Params a) (x : List Byte) : (newJob p x).implementation = p.implementation := by
  unfold newJob; split <;> rfl

theorem shapes_append {ι : Type} (l l' : List (Pass a ι)) : shapes (l ++ l') = shapes l ++ shapes l' := by simp [shapes]

theorem created_shape {items items' : List (Params a × List Byte)} (hl : items.length = items'.length)
    (hp : ∀ (i : Nat) (h1 : i < items.length) (h2 : i < items'.length), PubP items[i] items'[i]) (n : Nat) :
    shapes ((items.zipIdx n).flatMap fun q => solo q.2 (newCalls q.1.1 q.1.2)) =
      shapes ((items'.zipIdx n).flatMap fun q => solo q.2 (newCalls q.1.1 q.1.2)) := by
  induction items generalizing items' n with
  | nil =>
    cases items' with
    | nil => rfl
    | cons q qs => simp at hl
  | cons q qs ih =>
    cases items' with
    | nil => simp at hl
    | cons q' qs' =>
      rw [List.zipIdx_cons, List.zipIdx_cons, List.flatMap_cons, List.flatMap_cons, shapes_append, shapes_append]
      congr 1
      · exact shapes_solo _ (hp 0 (by simp) (by simp)).newCalls
      · refine ih (by simpa using hl) (fun i h1 h2 => ?_) _
        exact hp (i + 1) (by simpa using h1) (by simpa using h2)

theorem session_shape {items items' : List (Params a × List Byte)} (hl : items.length = items'.length)
    (hp : ∀ (i : Nat) (h1 : i < items.length) (h2 : i < items'.length), PubP items[i] items'[i]) :
    shapes ((items.zipIdx.flatMap fun q => solo q.2 (newCalls q.1.1 q.1.2)) ++
          rename Fin.val (Sched.run (fun i : Fin (items.map fun q => newJob q.1 q.2).length =>
              Blake2.hashPull (items.map fun q => newJob q.1 q.2)[i])
            (implDegree a (hashImp (items.map fun q => newJob q.1 q.2))) (hiDegree a) (loDegree a) (List.finRange _))) =
    shapes ((items'.zipIdx.flatMap fun q => solo q.2 (newCalls q.1.1 q.1.2)) ++
          rename Fin.val (Sched.run (fun i : Fin (items'.map fun q => newJob q.1 q.2).length =>
              Blake2.hashPull (items'.map fun q => newJob q.1 q.2)[i])
            (implDegree a (hashImp (items'.map fun q => newJob q.1 q.2))) (hiDegree a) (loDegree a) (List.finRange _))) := by
  rw [shapes_append, shapes_append, created_shape hl hp]
  congr 1
  have himp : hashImp (items.map fun q => newJob q.1 q.2) = hashImp (items'.map fun q => newJob q.1 q.2) := by
    cases items with
    | nil =>
      cases items' with
      | nil => rfl
      | cons q qs => simp at hl
    | cons q qs =>
      cases items' with
      | nil => simp at hl
      | cons q' qs' =>
        simp only [hashImp, List.map_cons, List.head?_cons, Option.map_some, Option.getD_some, newJob_implementation]
        exact (hp 0 (by simp) (by simp)).implementation
  rw [himp]
  have hl2 : (items.map fun q => newJob q.1 q.2).length = (items'.map fun q => newJob q.1 q.2).length := by
    rw [List.length_map, List.length_map, hl]
  refine shapes_run_congr hl2 _ _ (fun k => ?_) _ _ _ (fun k => k)
  have h1 : k.val < items.length := Nat.lt_of_lt_of_eq k.2 (List.length_map ..)
  have := (hp k.val h1 (by omega)).hashPull
  simp only [Sched.mapPull, Fin.getElem_fin, List.getElem_map, Fin.val_cast]
  exact this

/-! ## Erasure -/

theorem newAll_erase (items : List (Params a × List Byte)) (n : Nat) :
    ((items.zipIdx n).mapM fun q => HashManyJob.newT (a := a) q.2 q.1.1 q.1.2).erase =
      items.mapM fun q => HashManyJob.new q.1 q.2 := by
  induction items generalizing n with
  | nil => rfl
  | cons q qs ih =>
    rw [List.zipIdx_cons, List.mapM_cons, List.mapM_cons, Traced.erase_bind, newT_erase]
    congr 1
    funext j
    rw [Traced.erase_bind, ih]
    rfl

/-- Without the log `hashAllT` is: build parameters, create the jobs, run them. -/
theorem hashAllT_erase (reqs : List (Platform × List Spec.Setter × List Byte)) :
    (hashAllT (a := a) reqs).erase = (do
      let items ← reqs.mapM fun q => do
        let p ← (Params.new a q.1).build q.2.1
        .ok (p, q.2.2)
      let jobs ← items.mapM fun q => HashManyJob.new q.1 q.2
      hashMany jobs) := by
  unfold hashAllT
  rw [Traced.erase_bind]
  congr 1
  · exact Traced.erase_lift _
  · funext items
    rw [Traced.erase_bind, newAll_erase]
    congr 1
    funext jobs
    rw [Traced.erase_relabel, hashManyT_erase]

end Blake2
