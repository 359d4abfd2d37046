import Verif.Model.Caught
import Verif.Properties.World
import Verif.Properties.Batch
import Verif.Properties.Unwind
import Verif.Properties.InPlace
import Verif.Properties.Output
/-! # Memory in which some chaining values are wrong, beside memory in which they are right -/
namespace Blake2
open Spec

variable {a : Alg}

/-- Lists that agree outside `T`, and in which elements in the same place are related. -/
def Near {α : Type} (R : α → α → Prop) (T : List Nat) (l l' : List α) : Prop :=
  l.length = l'.length ∧ ∀ (i : Nat) (h : i < l.length) (h' : i < l'.length), R l[i] l'[i] ∧ (i ∉ T → l[i] = l'[i])

section
variable {α : Type} {R : α → α → Prop} {T T' : List Nat} {l l' : List α}

theorem Near.mono (r : Near R T l l') (h : ∀ i ∈ T, i ∈ T') : Near R T' l l' :=
  ⟨r.1, fun i h1 h2 => ⟨(r.2 i h1 h2).1, fun hi => (r.2 i h1 h2).2 fun hm => hi (h i hm)⟩⟩

theorem Near.get (r : Near R T l l') {i : Nat} (hi : i < l'.length) :
    ∃ x x', getState l i = .ok x ∧ getState l' i = .ok x' ∧ x' ∈ l' ∧ R x x' ∧ (i ∉ T → x = x') := by
  have h : i < l.length := by rw [r.1]; exact hi
  exact ⟨l[i], l'[i], by simp [getState, h], by simp [getState, hi], List.getElem_mem hi, (r.2 i h hi).1, (r.2 i h hi).2⟩

theorem Near.append (r : Near R T l l') {x x' : α} (hx : R x x') (he : l'.length ∉ T → x = x') : Near R T (l ++ [x]) (l' ++ [x']) := by
  have hl := r.1
  refine ⟨by simp [hl], fun i h1 h2 => ?_⟩
  simp only [List.length_append, List.length_singleton] at h1
  by_cases hi : i < l.length
  · rw [List.getElem_append_left hi, List.getElem_append_left (by omega)]; exact r.2 _ _ _
  · have : i = l.length := by omega
    subst this
    simp only [List.getElem_concat_length, hl]
    exact ⟨hx, he⟩

theorem Near.append_same (r : Near R T l l') (hr : ∀ x, R x x) (x : α) : Near R T (l ++ [x]) (l' ++ [x]) :=
  r.append (hr x) fun _ => rfl

theorem Near.set (r : Near R T l l') (i : Nat) {x x' : α} (hx : R x x') (he : i ∉ T → x = x') : Near R T (l.set i x) (l'.set i x') := by
  refine ⟨by simp [r.1], fun j h1 h2 => ?_⟩
  rw [List.getElem_set, List.getElem_set]
  by_cases hij : i = j
  · subst hij
    rw [if_pos rfl, if_pos rfl]
    exact ⟨hx, he⟩
  · rw [if_neg hij, if_neg hij]
    exact r.2 _ _ _

/-- Storing the results of a batch. -/
theorem Near.setAll {β : Type} (f : β → Nat) (js : List β) (out out' : List α) (r : Near R T l l')
    (ho : ∀ (k : Nat) (j : β) (x x' : α), js[k]? = some j → out[k]? = some x → out'[k]? = some x' → R x x' ∧ (f j ∉ T → x = x'))
    (hl : out.length = out'.length) :
    Near R T ((js.zip out).foldl (fun ss p => ss.set (f p.1) p.2) l) ((js.zip out').foldl (fun ss p => ss.set (f p.1) p.2) l') := by
  induction js generalizing l l' out out' with
  | nil => exact r
  | cons j js ih =>
    match out, out' with
    | [], [] => exact r
    | [], _ :: _ => cases hl
    | _ :: _, [] => cases hl
    | x :: out, x' :: out' =>
      obtain ⟨h1, h2⟩ := ho 0 j x x' rfl rfl rfl
      simp only [List.zip_cons_cons, List.foldl_cons]
      exact ih out out' (r.set (f j) h1 h2) (fun k j y y' e1 e2 e3 => ho (k + 1) j y y' (by simpa using e1) (by simpa using e2)
        (by simpa using e3)) (by simpa using hl)

end

/-- The values a batch is given. -/
theorem mapM_lookup {S α β : Type} (ss : List S) (js : List β) (f : β → Nat) (g : β → S → α) (h : ∀ j ∈ js, f j < ss.length) :
    ∃ out : List α, js.mapM (fun j => do
        let s ← getState ss (f j)
        (.ok (g j s) : Res α)) = .ok out ∧ out.length = js.length ∧
      ∀ (k : Nat) (j : β), js[k]? = some j → ∃ s, ss[f j]? = some s ∧ out[k]? = some (g j s) := by
  induction js with
  | nil => exact ⟨[], rfl, rfl, fun k j hk => by simp at hk⟩
  | cons j js ih =>
    obtain ⟨out, e, hl, hg⟩ := ih fun j hj => h j (by simp [hj])
    have hj : f j < ss.length := h j (by simp)
    refine ⟨g j ss[f j] :: out, ?_, by simp [hl], fun k j' hk => ?_⟩
    · rw [List.mapM_cons, e]
      simp only [getState, List.getElem?_eq_getElem hj, bind, Except.bind]
      rfl
    · cases k with
      | zero =>
        simp only [List.getElem?_cons_zero, Option.some.injEq] at hk
        subst hk
        exact ⟨_, List.getElem?_eq_getElem hj, rfl⟩
      | succ k => exact hg k j' (by simpa using hk)

/-- States that differ in the chaining value only. -/
def State.Twin (s s' : State a) : Prop := ∃ w, s = { s' with words := w }

/-- Jobs that differ in the chaining value only. -/
def HashManyJob.Twin (j j' : HashManyJob a) : Prop := ∃ w, j = { j' with words := w }

/-- Hashes that differ in the bytes only. -/
def Hash.Twin (h h' : Hash a) : Prop := h.len = h'.len ∧ h.bytes.length = h'.bytes.length

theorem State.Twin.refl (s : State a) : s.Twin s := ⟨_, rfl⟩
theorem HashManyJob.Twin.refl (j : HashManyJob a) : j.Twin j := ⟨_, rfl⟩
theorem Hash.Twin.refl (h : Hash a) : h.Twin h := ⟨rfl, rfl⟩

theorem State.Twin.trans {s t u : State a} (h : s.Twin t) (h' : t.Twin u) : s.Twin u := by
  obtain ⟨w, rfl⟩ := h
  obtain ⟨w', rfl⟩ := h'
  exact ⟨w, rfl⟩

theorem HashManyJob.Twin.trans {s t u : HashManyJob a} (h : s.Twin t) (h' : t.Twin u) : s.Twin u := by
  obtain ⟨w, rfl⟩ := h
  obtain ⟨w', rfl⟩ := h'
  exact ⟨w, rfl⟩

theorem State.Twin.sane {s s' : State a} (h : s.Twin s') (hs : s'.Sane) : s.Sane := by
  obtain ⟨w, rfl⟩ := h
  exact ⟨hs.1, hs.2, hs.3⟩

theorem State.Twin.upd {s s' : State a} (h : s.Twin s') (x : List Byte) : (State.upd s x).Twin (State.upd s' x) := by
  obtain ⟨w, rfl⟩ := h
  have hc : ∃ v, State.cbp { s' with words := w } x = ({ (State.cbp s' x).1 with words := v }, (State.cbp s' x).2) := by
    unfold State.cbp
    dsimp only [State.filled]
    split
    · split
      · exact ⟨_, rfl⟩
      · exact ⟨_, rfl⟩
    · exact ⟨_, rfl⟩
  obtain ⟨v, hv⟩ := hc
  unfold State.upd
  rw [hv]
  split
  · exact ⟨_, rfl⟩
  · exact ⟨_, rfl⟩

theorem HashManyJob.Twin.done {j j' : HashManyJob a} (h : j.Twin j') : j.done.Twin j'.done := by
  obtain ⟨w, rfl⟩ := h
  unfold HashManyJob.done
  dsimp only
  split <;> exact ⟨_, rfl⟩

/-- Memories that agree apart from the spoilt values, and in them up to chaining values and digests. -/
structure NearMem (s : Spoilt) (m m' : Mem a) : Prop where
  params : m.params = m'.params
  states : Near State.Twin s.states m.states m'.states
  jobs : Near HashManyJob.Twin s.jobs m.jobs m'.jobs
  hashes : Near Hash.Twin s.hashes m.hashes m'.hashes
  treeParams : m.treeParams = m'.treeParams
  treeStates : m.treeStates = m'.treeStates

/-- Two outcomes: the same fault, or stores related by `N` and, if `Q`, the same answer. -/
def Match {M O : Type} (N : M → M → Prop) (Q : Prop) (x y : Res (M × O)) : Prop :=
  match x, y with
  | .ok (m, o), .ok (m', o') => N m m' ∧ (Q → o = o')
  | .error e, .error e' => e = e'
  | _, _ => False

section
variable {M O γ : Type} {N : M → M → Prop} {Q : Prop}

theorem Match.bind {x : Res γ} {f g : γ → Res (M × O)} (h : ∀ v, x = .ok v → Match N Q (f v) (g v)) :
    Match N Q (x >>= f) (x >>= g) := by
  cases x with
  | error e => exact rfl
  | ok v => exact h v rfl

theorem Match.bindGet {α : Type} {R : α → α → Prop} {T : List Nat} {l l' : List α} (r : Near R T l l') (i : Nat)
    {f g : α → Res (M × O)} (h : ∀ u v, v ∈ l' → i < l'.length → R u v → (i ∉ T → u = v) → Match N Q (f u) (g v)) :
    Match N Q (getState l i >>= f) (getState l' i >>= g) := by
  by_cases hi : i < l'.length
  · obtain ⟨x, x', e, e', hm, h1, h2⟩ := r.get hi
    rw [e, e']
    exact h _ _ hm hi h1 h2
  · have h1 : getState l i = .error .panic := by
      have := r.1
      simp [getState, show ¬ i < l.length by omega]
    have h2 : getState l' i = .error .panic := by simp [getState, hi]
    rw [h1, h2]
    exact rfl

theorem Match.bindBytes {u v : Hash a} (h : u.Twin v) {f g : List Byte → Res (M × O)}
    (k : ∀ d d', (u = v → d = d') → d.length ≤ v.bytes.length → d'.length ≤ v.bytes.length → Match N Q (f d) (g d')) :
    Match N Q (u.asBytes >>= f) (v.asBytes >>= g) := by
  unfold Hash.asBytes sliceTo
  rw [h.1, h.2]
  split
  · exact k _ _ (fun e => by rw [e]) (by rw [List.length_take, h.2]; omega) (by rw [List.length_take]; omega)
  · exact rfl

end

theorem op_near {T : List Nat} {ss ss' : List (State a)} (r : Near State.Twin T ss ss') (hs : ∀ s ∈ ss', s.Sane) (dbg : Bool)
    (op : Op Platform) (hw : op.WellTyped ss'.length) :
    Match (Near State.Twin (match op with | .clone i => if i ∈ T then ss'.length :: T else T | _ => T))
      (match op with | .finalize i => i ∉ T | _ => True) (op.exec dbg ss) (op.exec dbg ss') := by
  cases op with
  | create plat calls => exact Match.bind fun p _ => ⟨r.append_same .refl _, fun _ => rfl⟩
  | clone i =>
    refine Match.bindGet r i fun u v _ hi h1 h2 => ⟨?_, fun _ => rfl⟩
    dsimp only
    by_cases hT : i ∈ T
    · rw [if_pos hT]
      exact (r.mono fun _ h => List.mem_cons_of_mem _ h).append h1 fun hn => absurd List.mem_cons_self hn
    · rw [if_neg hT]
      exact r.append h1 fun _ => h2 hT
  | update i x =>
    refine Match.bindGet r i fun u v hv _ h1 h2 => ?_
    rw [State.update_eq v x (hs v hv), State.update_eq u x (h1.sane (hs v hv))]
    exact ⟨r.set i (h1.upd x) fun h => by rw [h2 h], fun _ => rfl⟩
  | write i x =>
    refine Match.bindGet r i fun u v hv _ h1 h2 => ?_
    simp only [State.write, State.update_eq v x (hs v hv), State.update_eq u x (h1.sane (hs v hv)), bind, Except.bind]
    exact ⟨r.set i (h1.upd x) fun h => by rw [h2 h], fun _ => rfl⟩
  | flush i => exact Match.bindGet r i fun u v hv _ h1 h2 => ⟨r.set i h1 h2, fun _ => rfl⟩
  | setLastNode i b =>
    refine Match.bindGet r i fun u v hv _ h1 h2 => ⟨r.set i ?_ fun h => by rw [h2 h], fun _ => rfl⟩
    obtain ⟨w, rfl⟩ := h1
    exact ⟨w, rfl⟩
  | finalize i =>
    refine Match.bindGet r i fun u v hv _ h1 h2 => ?_
    rw [State.finalize_eq v (hs v hv), State.finalize_eq u (h1.sane (hs v hv))]
    refine Match.bindBytes ⟨?_, by rw [stateWordsToBytes_length, stateWordsToBytes_length]⟩ fun d d' e _ _ => ⟨r, fun hi => ?_⟩
    · obtain ⟨w, rfl⟩ := h1
      rfl
    · rw [e (by rw [h2 hi])]
  | count i =>
    refine Match.bindGet r i fun u v hv _ h1 h2 => ?_
    rw [show u.getCount dbg = v.getCount dbg by obtain ⟨w, rfl⟩ := h1; rfl]
    exact Match.bind fun n _ => ⟨r, fun _ => rfl⟩
  | updateMany jobs =>
    obtain ⟨out, e, hl, hg⟩ := mapM_lookup ss jobs Prod.fst (fun j s => (s, j.2)) (fun j hj => by rw [r.1]; exact hw.1 j hj)
    obtain ⟨out', e', hl', hg'⟩ := mapM_lookup ss' jobs Prod.fst (fun j s => (s, j.2)) hw.1
    have key : ∀ (k : Nat) (j : Nat × List Byte), jobs[k]? = some j → ∃ s s', out[k]? = some (s, j.2) ∧ out'[k]? = some (s', j.2) ∧
        s' ∈ ss' ∧ s.Twin s' ∧ (j.1 ∉ T → s = s') := by
      intro k j hk
      obtain ⟨s, h1, h2⟩ := hg k j hk
      obtain ⟨s', h1', h2'⟩ := hg' k j hk
      obtain ⟨hi, rfl⟩ := List.getElem?_eq_some_iff.1 h1
      obtain ⟨hi', rfl⟩ := List.getElem?_eq_some_iff.1 h1'
      exact ⟨_, _, h2, h2', List.getElem_mem _, r.2 _ hi hi'⟩
    have sane' : ∀ p ∈ out', p.1.Sane := by
      intro p hp
      obtain ⟨k, hk, rfl⟩ := List.getElem_of_mem hp
      obtain ⟨s, s', _, h2, h3, _⟩ := key k jobs[k] (List.getElem?_eq_getElem (by omega))
      rw [List.getElem?_eq_getElem hk] at h2
      injection h2 with h2
      rw [h2]
      exact hs _ h3
    have sane : ∀ p ∈ out, p.1.Sane := by
      intro p hp
      obtain ⟨k, hk, rfl⟩ := List.getElem_of_mem hp
      obtain ⟨s, s', h1, h2, h3, h4, _⟩ := key k jobs[k] (List.getElem?_eq_getElem (by omega))
      rw [List.getElem?_eq_getElem hk] at h1
      injection h1 with h1
      rw [h1]
      exact h4.sane (hs _ h3)
    show Match _ _ (_ >>= _) (_ >>= _)
    rw [e, e']
    show Match _ _ (updateMany out >>= _) (updateMany out' >>= _)
    rw [updateMany_eq out sane, updateMany_eq out' sane']
    refine ⟨r.setAll (f := Prod.fst) jobs _ _ (fun k j x x' h1 h2 h3 => ?_) (by simp [hl, hl']), fun _ => rfl⟩
    obtain ⟨s, s', e1, e2, _, h5, h6⟩ := key k j h1
    rw [List.getElem?_map, e1] at h2
    rw [List.getElem?_map, e2] at h3
    injection h2 with h2
    injection h3 with h3
    subst h2 h3
    exact ⟨h5.upd j.2, fun h => by rw [h6 h]⟩

theorem mem_of_rel {H S : Type} {R : H → S → Prop} {hs : List H} {ss : List S} (r : Rel R hs ss) {s : S} (h : s ∈ ss) :
    ∃ x, R x s := by
  obtain ⟨i, hi, rfl⟩ := List.getElem_of_mem h
  exact ⟨_, r.2 i (by rw [← r.1]; exact hi) hi⟩

theorem JobRel.count_mod {t : ManyJob} {j : HashManyJob a} (r : JobRel a t j) : j.count.toNat % a.bb = 0 := by
  rw [r.count]
  split
  · cases a <;> decide
  · simp

theorem batch_near {T : List Nat} {js js' : List (HashManyJob a)} (r : Near HashManyJob.Twin T js js')
    (hs : ∀ j ∈ js', j.count.toNat % a.bb = 0) (is : List Nat) (hi : ∀ i ∈ is, i < js'.length) :
    ∃ out out', runBatch js is = .ok out ∧ runBatch js' is = .ok out' ∧ Near HashManyJob.Twin T out out' := by
  obtain ⟨out, e, hl, hg⟩ := mapM_lookup js is id (fun _ s => s) (fun j hj => by rw [r.1]; exact hi j hj)
  obtain ⟨out', e', hl', hg'⟩ := mapM_lookup js' is id (fun _ s => s) hi
  have key : ∀ (k i : Nat), is[k]? = some i → ∃ s s', out[k]? = some s ∧ out'[k]? = some s' ∧
      s' ∈ js' ∧ s.Twin s' ∧ (i ∉ T → s = s') := by
    intro k j hk
    obtain ⟨s, h1, h2⟩ := hg k j hk
    obtain ⟨s', h1', h2'⟩ := hg' k j hk
    obtain ⟨hi, rfl⟩ := List.getElem?_eq_some_iff.1 h1
    obtain ⟨hi', rfl⟩ := List.getElem?_eq_some_iff.1 h1'
    exact ⟨_, _, h2, h2', List.getElem_mem _, r.2 _ hi hi'⟩
  have sane' : ∀ p ∈ out', p.count.toNat % a.bb = 0 := by
    intro p hp
    obtain ⟨k, hk, rfl⟩ := List.getElem_of_mem hp
    obtain ⟨s, s', _, h2, h3, _⟩ := key k is[k] (List.getElem?_eq_getElem (by omega))
    rw [List.getElem?_eq_getElem hk] at h2
    injection h2 with h2
    rw [h2]
    exact hs _ h3
  have sane : ∀ p ∈ out, p.count.toNat % a.bb = 0 := by
    intro p hp
    obtain ⟨k, hk, rfl⟩ := List.getElem_of_mem hp
    obtain ⟨s, s', h1, h2, h3, ⟨w, h4⟩, _⟩ := key k is[k] (List.getElem?_eq_getElem (by omega))
    rw [List.getElem?_eq_getElem hk] at h1
    injection h1 with h1
    rw [h1, h4]
    exact hs s' h3
  have get : ∀ l : List (HashManyJob a), is.mapM (getState l) = is.mapM (fun j => do
      let s ← getState l (id j)
      (.ok s : Res (HashManyJob a))) := by
    intro l
    congr 1
    funext j
    cases h : getState l j <;> simp [h, bind, Except.bind]
  unfold runBatch
  rw [get, get, e, e']
  simp only [bind, Except.bind]
  rw [hashMany_eq out sane, hashMany_eq out' sane']
  refine ⟨_, _, rfl, rfl, r.setAll (f := id) is _ _ (fun k j x x' h1 h2 h3 => ?_) (by simp [hl, hl'])⟩
  obtain ⟨s, s', e1, e2, _, h5, h6⟩ := key k j h1
  rw [List.getElem?_map, e1] at h2
  rw [List.getElem?_map, e2] at h3
  injection h2 with h2
  injection h3 with h3
  subst h2 h3
  exact ⟨h5.done, fun h => by rw [h6 h]⟩

/-- A call on memory with spoilt values goes as on memory without, and spoils what is made from spoilt values. -/
theorem apiCall_near {w : World} {m m' : Mem a} {s : Spoilt} (rm : MemRel a w m') (r : NearMem s m m') (dbg : Bool)
    (c : ApiCall Platform) (hw : c.WellTyped a w) :
    Match (NearMem (c.spread w s)) (¬ c.Shows s) (c.exec dbg m) (c.exec dbg m') := by
  have hsane : ∀ s ∈ m'.states, s.Sane := fun s hs => by
    obtain ⟨x, hx⟩ := mem_of_rel rm.states hs
    exact hx.sane
  have hcount : ∀ j ∈ m'.jobs, j.count.toNat % a.bb = 0 := fun j hj => by
    obtain ⟨x, hx⟩ := mem_of_rel rm.jobs hj
    exact hx.count_mod
  have hfull : ∀ h ∈ m'.hashes, h.bytes.length = a.outbytes := fun h hh => by
    obtain ⟨x, hx⟩ := mem_of_rel rm.hashes hh
    rw [hx.bytes]
    exact hx.full
  obtain ⟨ps, ss, js, hs, tp, ts⟩ := m
  obtain ⟨ps', ss', js', hs', tp', ts'⟩ := m'
  obtain ⟨e1, rs, rj, rh, e5, e6⟩ := r
  obtain ⟨_, ms, mj, mh, _, _⟩ := rm
  dsimp only at e1 rs rj rh e5 e6 hsane hcount hfull ms mj mh
  subst e1 e5 e6
  cases c
  case onStates op =>
    have h := op_near rs hsane dbg op (by rw [ms.1]; exact hw)
    show Match _ _ (op.exec dbg ss >>= _) (op.exec dbg ss' >>= _)
    revert h
    generalize op.exec dbg ss = x
    generalize op.exec dbg ss' = y
    intro h
    match x, y, h with
    | .error _, .error _, rfl => exact rfl
    | .ok (t, o), .ok (t', o'), ⟨h1, h2⟩ =>
      refine ⟨?_, fun hq => ?_⟩
      · cases op
        case clone i =>
          dsimp only [ApiCall.spread] at h1 ⊢
          rw [ms.1] at h1
          by_cases hi : i ∈ s.states
          · rw [if_pos hi] at h1 ⊢
            exact ⟨rfl, h1, rj, rh, rfl, rfl⟩
          · rw [if_neg hi] at h1 ⊢
            exact ⟨rfl, h1, rj, rh, rfl, rfl⟩
        all_goals exact ⟨rfl, h1, rj, rh, rfl, rfl⟩
      · rw [h2]
        cases op
        case finalize i => exact hq
        all_goals exact trivial
  case finalize i =>
    refine Match.bindGet rs i fun u v hv _ h1 h2 => ?_
    rw [State.finalize_eq v (hsane v hv), State.finalize_eq u (h1.sane (hsane v hv))]
    refine ⟨?_, fun _ => rfl⟩
    have twin : Hash.Twin (a := a) { bytes := stateWordsToBytes a (absorb a .Serial true u.lastNode u.words u.count (u.buf.take u.buflen)),
                                      len := u.hashLength }
        { bytes := stateWordsToBytes a (absorb a .Serial true v.lastNode v.words v.count (v.buf.take v.buflen)),
          len := v.hashLength } :=
      ⟨by obtain ⟨w, rfl⟩ := h1; rfl, by rw [stateWordsToBytes_length, stateWordsToBytes_length]⟩
    dsimp only [ApiCall.spread]
    by_cases hi : i ∈ s.states
    · rw [if_pos hi, ← mh.1]
      exact ⟨rfl, rs, rj, (rh.mono fun _ h => List.mem_cons_of_mem _ h).append twin fun hn => absurd List.mem_cons_self hn, rfl, rfl⟩
    · rw [if_neg hi]
      exact ⟨rfl, rs, rj, rh.append twin fun _ => by rw [h2 hi], rfl, rfl⟩
  case debugState i =>
    refine Match.bindGet rs i fun u v hv _ h1 h2 => ?_
    rw [show u.debugFmt dbg = v.debugFmt dbg by obtain ⟨w, rfl⟩ := h1; rfl]
    exact Match.bind fun t _ => ⟨⟨rfl, rs, rj, rh, rfl, rfl⟩, fun _ => rfl⟩
  case cloneJob i =>
    refine Match.bindGet rj i fun u v hv _ h1 h2 => ⟨?_, fun _ => rfl⟩
    dsimp only [ApiCall.spread]
    by_cases hi : i ∈ s.jobs
    · rw [if_pos hi, ← mj.1]
      exact ⟨rfl, rs, (rj.mono fun _ h => List.mem_cons_of_mem _ h).append h1 fun hn => absurd List.mem_cons_self hn, rh, rfl, rfl⟩
    · rw [if_neg hi]
      exact ⟨rfl, rs, rj.append h1 fun _ => h2 hi, rh, rfl, rfl⟩
  case hashMany is =>
    obtain ⟨out, out', e, e', h⟩ := batch_near rj hcount is (fun i hi => by rw [mj.1]; exact hw.1 i hi)
    show Match _ _ (runBatch js is >>= _) (runBatch js' is >>= _)
    rw [e, e']
    exact ⟨⟨rfl, rs, h, rh, rfl, rfl⟩, fun _ => rfl⟩
  case toHash i =>
    refine Match.bindGet rj i fun u v hv _ h1 h2 => ?_
    obtain ⟨x, rfl⟩ := h1
    unfold HashManyJob.toHash
    dsimp only
    split
    · exact rfl
    refine ⟨?_, fun _ => rfl⟩
    have twin : Hash.Twin (a := a) { bytes := stateWordsToBytes a x, len := v.hashLength }
        { bytes := stateWordsToBytes a v.words, len := v.hashLength } :=
      ⟨rfl, by rw [stateWordsToBytes_length, stateWordsToBytes_length]⟩
    dsimp only [ApiCall.spread]
    by_cases hi : i ∈ s.jobs
    · rw [if_pos hi, ← mh.1]
      exact ⟨rfl, rs, rj, (rh.mono fun _ h => List.mem_cons_of_mem _ h).append twin fun hn => absurd List.mem_cons_self hn, rfl, rfl⟩
    · rw [if_neg hi]
      exact ⟨rfl, rs, rj, rh.append twin fun _ => by rw [← h2 hi], rfl, rfl⟩
  case debugJob i =>
    refine Match.bindGet rj i fun u v hv _ h1 h2 => ⟨⟨rfl, rs, rj, rh, rfl, rfl⟩, fun _ => ?_⟩
    obtain ⟨w, rfl⟩ := h1
    rfl
  case asBytes i =>
    refine Match.bindGet rh i fun u v hv _ h1 h2 => ?_
    exact Match.bindBytes h1 fun d d' e _ _ => ⟨⟨rfl, rs, rj, rh, rfl, rfl⟩, fun hi => by rw [e (h2 hi)]⟩
  case asArray i =>
    refine Match.bindGet rh i fun u v hv _ h1 h2 => ?_
    unfold Hash.asArray
    rw [h1.1]
    split
    · exact rfl
    · exact ⟨⟨rfl, rs, rj, rh, rfl, rfl⟩, fun hi => by rw [h2 hi]⟩
  case toHex i =>
    refine Match.bindGet rh i fun u v hv _ h1 h2 => ?_
    unfold Hash.toHex
    rw [bind_assoc, bind_assoc]
    refine Match.bindBytes h1 fun d d' e l l' => ?_
    rw [hfull v hv] at l l'
    rw [bytesToHex_eq d l, bytesToHex_eq d' l']
    exact ⟨⟨rfl, rs, rj, rh, rfl, rfl⟩, fun hi => by rw [e (h2 hi)]⟩
  case debugHash i =>
    refine Match.bindGet rh i fun u v hv _ h1 h2 => ?_
    unfold Hash.debugFmt Hash.toHex
    simp only [bind_assoc]
    refine Match.bindBytes h1 fun d d' e l l' => ?_
    rw [hfull v hv] at l l'
    rw [bytesToHex_eq d l, bytesToHex_eq d' l']
    exact ⟨⟨rfl, rs, rj, rh, rfl, rfl⟩, fun hi => by rw [e (h2 hi)]⟩
  case eqBytes i x =>
    refine Match.bindGet rh i fun u v hv _ h1 h2 => ?_
    unfold Hash.eqSlice
    rw [bind_assoc, bind_assoc]
    exact Match.bindBytes h1 fun d d' e _ _ => ⟨⟨rfl, rs, rj, rh, rfl, rfl⟩, fun hi => by rw [e (h2 hi)]⟩
  case eqHash i j =>
    refine Match.bindGet rh i fun u v hv _ h1 h2 => ?_
    refine Match.bindGet rh j fun u' v' hv' _ h1' h2' => ?_
    unfold Hash.eqHash
    simp only [bind_assoc]
    refine Match.bindBytes h1 fun d d' e _ _ => ?_
    refine Match.bindBytes h1' fun f f' e' _ _ => ⟨⟨rfl, rs, rj, rh, rfl, rfl⟩, fun hi => ?_⟩
    rw [e (h2 fun h => hi (.inl h)), e' (h2' fun h => hi (.inr h))]
  all_goals
    repeat' (first
      | exact ⟨⟨rfl, rs, rj, rh, rfl, rfl⟩, fun _ => rfl⟩
      | exact ⟨⟨rfl, rs, rj, rh.append_same .refl _, rfl, rfl⟩, fun _ => rfl⟩
      | exact ⟨⟨rfl, rs.append_same .refl _, rj, rh, rfl, rfl⟩, fun _ => rfl⟩
      | exact ⟨⟨rfl, rs, rj.append_same .refl _, rh, rfl, rfl⟩, fun _ => rfl⟩
      | (refine Match.bind fun _ _ => ?_))

/-- What a panicking iterator leaves of sane states. -/
theorem updateManyP_left (pairs : List (State a × List Byte)) (hs : ∀ q ∈ pairs, q.1.Sane) :
    ∃ (out : List (State a)) (torn : List Nat), updateManyP true pairs = .ok (.unwound out) ∧ out.length = pairs.length ∧
      torn.length < mostLanes a ∧ ∀ (k : Nat) (s : State a) (x : List Byte) (o : State a), pairs[k]? = some (s, x) → out[k]? = some o →
        o.Twin (State.upd s x) ∧ (k ∉ torn → o = State.upd s x) := by
  cases pairs with
  | nil => exact ⟨[], [], rfl, rfl, by cases a <;> decide, fun k s x o h => by simp at h⟩
  | cons first rest =>
    obtain ⟨pairs, hpairs⟩ : ∃ pairs, pairs = first :: rest := ⟨_, rfl⟩
    rw [← hpairs] at hs
    let src : Source a (Fin pairs.length) (State a) := {
      pull := fun i s => updateManyPull i (pairs[i]).2 s
      getWords := fun s => s.words
      setWords := fun s w => { s with words := w } }
    obtain ⟨mem, e, hl⟩ := compressManyP_true (src := src) ⟨fun _ _ => rfl, fun _ _ _ => rfl⟩ first.1.implementation false
      .Serial (fun i : Fin pairs.length => (pairs[i]).1) (fun i => State.upd (pairs[i]).1 (pairs[i]).2)
      (List.finRange pairs.length) (List.nodup_finRange _)
      (fun i _ => updateManyPull_ok _ i _ _ (hs _ (by simp)) rfl (fun _ => rfl) (fun _ _ => rfl))
      (fun i hi => absurd (List.mem_finRange i) hi)
    obtain ⟨torn, ht, hleft⟩ := left_list hl
    refine ⟨List.ofFn mem, torn, ?_, by rw [← hpairs]; simp, Nat.lt_of_lt_of_le ht ?_, ?_⟩
    · subst hpairs
      exact ended_unwound e
    · generalize first.1.implementation = imp
      cases a <;> cases imp <;> decide
    · intro i s x o hi ho
      rw [← hpairs] at hi
      obtain ⟨hlt, hix⟩ := List.getElem?_eq_some_iff.1 hi
      obtain ⟨h1, w, h2⟩ := hleft i hlt
      have hfin : State.upd (pairs[(⟨i, hlt⟩ : Fin pairs.length)]).1 (pairs[(⟨i, hlt⟩ : Fin pairs.length)]).2 = State.upd s x := by
        simp [hix]
      rw [hfin] at h1 h2
      have : o = mem ⟨i, hlt⟩ := by simpa [hlt] using ho.symm
      subst this
      refine ⟨?_, h1⟩
      rcases h2 with h2 | h2
      · refine ⟨(mem ⟨i, hlt⟩).words, ?_⟩
        rw [← h2]
      · rw [h2]; exact .refl _

/-- What a panicking iterator leaves of jobs. -/
theorem hashManyP_left (jobs : List (HashManyJob a)) (hs : ∀ j ∈ jobs, j.count.toNat % a.bb = 0) :
    ∃ (out : List (HashManyJob a)) (torn : List Nat), hashManyP true jobs = .ok (.unwound out) ∧ out.length = jobs.length ∧
      torn.length < mostLanes a ∧ ∀ (k : Nat) (j o : HashManyJob a), jobs[k]? = some j → out[k]? = some o →
        o.Twin j.done ∧ (k ∉ torn → o = j.done) := by
  cases jobs with
  | nil => exact ⟨[], [], rfl, rfl, by cases a <;> decide, fun k s o h => by simp at h⟩
  | cons first rest =>
    obtain ⟨jobs, hjobs⟩ : ∃ jobs, jobs = first :: rest := ⟨_, rfl⟩
    rw [← hjobs] at hs
    let src : Source a (Fin jobs.length) (HashManyJob a) := {
      pull := hashManyPull
      getWords := fun j => j.words
      setWords := fun j w => { j with words := w } }
    obtain ⟨mem, e, hl⟩ := compressManyP_true (src := src) ⟨fun _ _ => rfl, fun _ _ _ => rfl⟩ first.implementation true
      .Serial (fun i : Fin jobs.length => jobs[i]) (fun i => HashManyJob.done jobs[i])
      (List.finRange jobs.length) (List.nodup_finRange _)
      (fun i _ => hashManyPull_ok _ i _ (hs _ (by simp)) rfl (fun _ => rfl) (fun _ _ => rfl))
      (fun i hi => absurd (List.mem_finRange i) hi)
    obtain ⟨torn, ht, hleft⟩ := left_list hl
    refine ⟨List.ofFn mem, torn, ?_, by rw [← hjobs]; simp, Nat.lt_of_lt_of_le ht ?_, ?_⟩
    · subst hjobs
      exact ended_unwound e
    · generalize first.implementation = imp
      cases a <;> cases imp <;> decide
    · intro i j o hi ho
      rw [← hjobs] at hi
      obtain ⟨hlt, hij⟩ := List.getElem?_eq_some_iff.1 hi
      obtain ⟨h1, w, h2⟩ := hleft i hlt
      have hfin : HashManyJob.done jobs[(⟨i, hlt⟩ : Fin jobs.length)] = j.done := by simp [hij]
      rw [hfin] at h1 h2
      have : o = mem ⟨i, hlt⟩ := by simpa [hlt] using ho.symm
      subst this
      refine ⟨?_, h1⟩
      rcases h2 with h2 | h2
      · refine ⟨(mem ⟨i, hlt⟩).words, ?_⟩
        rw [← h2]
      · rw [h2]; exact .refl _

/-- The numbers of the torn elements, from their places in the batch. -/
theorem torn_numbers {β : Type} (f : β → Nat) (js : List β) (torn : List Nat) :
    ∃ ids : List Nat, ids.length ≤ torn.length ∧ (∀ i ∈ ids, i ∈ js.map f) ∧
      ∀ (k : Nat) (j : β), js[k]? = some j → f j ∉ ids → k ∉ torn := by
  refine ⟨torn.filterMap fun k => js[k]?.map f, List.length_filterMap_le _ _, fun i hi => ?_, fun k j hk hn ht => hn ?_⟩
  · obtain ⟨k, _, hk⟩ := List.mem_filterMap.1 hi
    obtain ⟨j, hj, rfl⟩ := Option.map_eq_some_iff.1 hk
    exact List.mem_map_of_mem (List.mem_of_getElem? hj)
  · exact List.mem_filterMap.2 ⟨k, ht, by rw [hk]; rfl⟩

/-- A batch of updates whose iterator panics, beside one whose iterator ends. -/
theorem updateManyPanics_near {w : World} {m m' : Mem a} {s : Spoilt} (rm : MemRel a w m') (r : NearMem s m m') (dbg : Bool)
    (jobs : List (Nat × List Byte)) (hw : (ApiCall.onStates (.updateMany jobs) : ApiCall Platform).WellTyped a w) :
    ∃ m1 m1' torn, (Attempt.updateManyPanics jobs).exec dbg m = .ok (m1, none) ∧
      (ApiCall.onStates (.updateMany jobs)).exec dbg m' = .ok (m1', .plain .done) ∧ torn.length < mostLanes a ∧
      (∀ i ∈ torn, i ∈ jobs.map Prod.fst) ∧ NearMem { s with states := torn ++ s.states } m1 m1' := by
  have hsane : ∀ s ∈ m'.states, s.Sane := fun s hs => by
    obtain ⟨x, hx⟩ := mem_of_rel rm.states hs
    exact hx.sane
  have hi' : ∀ j ∈ jobs, j.1 < m'.states.length := fun j hj => by rw [rm.states.1]; exact hw.1 j hj
  obtain ⟨out, e, hl, hg⟩ := mapM_lookup m.states jobs Prod.fst (fun j s => (s, j.2)) (fun j hj => by rw [r.states.1]; exact hi' j hj)
  obtain ⟨out', e', hl', hg'⟩ := mapM_lookup m'.states jobs Prod.fst (fun j s => (s, j.2)) hi'
  have key : ∀ (k : Nat) (j : Nat × List Byte), jobs[k]? = some j → ∃ t t', out[k]? = some (t, j.2) ∧ out'[k]? = some (t', j.2) ∧
      t' ∈ m'.states ∧ t.Twin t' ∧ (j.1 ∉ s.states → t = t') := by
    intro k j hk
    obtain ⟨t, h1, h2⟩ := hg k j hk
    obtain ⟨t', h1', h2'⟩ := hg' k j hk
    obtain ⟨hi, rfl⟩ := List.getElem?_eq_some_iff.1 h1
    obtain ⟨hi', rfl⟩ := List.getElem?_eq_some_iff.1 h1'
    exact ⟨_, _, h2, h2', List.getElem_mem _, r.states.2 _ hi hi'⟩
  have sane' : ∀ p ∈ out', p.1.Sane := by
    intro p hp
    obtain ⟨k, hk, rfl⟩ := List.getElem_of_mem hp
    obtain ⟨t, t', _, h2, h3, _⟩ := key k jobs[k] (List.getElem?_eq_getElem (by omega))
    rw [List.getElem?_eq_getElem hk] at h2
    injection h2 with h2
    rw [h2]
    exact hsane _ h3
  have sane : ∀ p ∈ out, p.1.Sane := by
    intro p hp
    obtain ⟨k, hk, rfl⟩ := List.getElem_of_mem hp
    obtain ⟨t, t', h1, h2, h3, h4, _⟩ := key k jobs[k] (List.getElem?_eq_getElem (by omega))
    rw [List.getElem?_eq_getElem hk] at h1
    injection h1 with h1
    rw [h1]
    exact h4.sane (hsane _ h3)
  obtain ⟨left, torn, e2, hl2, ht, hleft⟩ := updateManyP_left out sane
  obtain ⟨ids, h1, h2, h3⟩ := torn_numbers Prod.fst jobs torn
  refine ⟨{ m with states := (jobs.zip left).foldl (fun ss p => ss.set p.1.1 p.2) m.states },
    { m' with states := (jobs.zip (out'.map fun p => State.upd p.1 p.2)).foldl (fun ss p => ss.set p.1.1 p.2) m'.states },
    ids, ?_, ?_, by omega, h2, r.params,
    (r.states.mono fun i hi => List.mem_append_right ids hi).setAll (f := Prod.fst) jobs left (out'.map fun p => State.upd p.1 p.2)
      (fun k j x x' hk hx hx' => ?_) (by rw [List.length_map]; omega), r.jobs, r.hashes, r.treeParams, r.treeStates⟩
  · show (_ >>= _) = _
    rw [e]
    show (updateManyP true out >>= _) = _
    rw [e2]
    rfl
  · show ((_ >>= _) >>= _) = _
    rw [e']
    show ((updateMany out' >>= _) >>= _) = _
    rw [updateMany_eq out' sane']
    rfl
  · obtain ⟨t, t', e1, e2, _, h5, h6⟩ := key k j hk
    rw [List.getElem?_map, e2] at hx'
    injection hx' with hx'
    subst hx'
    obtain ⟨g1, g2⟩ := hleft k t j.2 x e1 hx
    refine ⟨g1.trans (h5.upd j.2), fun hn => ?_⟩
    rw [List.mem_append, not_or] at hn
    rw [g2 (h3 k j hk hn.1), h6 hn.2]

/-- The same of jobs. -/
theorem hashManyPanics_near {w : World} {m m' : Mem a} {s : Spoilt} (rm : MemRel a w m') (r : NearMem s m m') (dbg : Bool)
    (is : List Nat) (hw : (ApiCall.hashMany is : ApiCall Platform).WellTyped a w) :
    ∃ m1 m1' torn, (Attempt.hashManyPanics is).exec dbg m = .ok (m1, none) ∧
      (ApiCall.hashMany is).exec dbg m' = .ok (m1', .done) ∧ torn.length < mostLanes a ∧
      (∀ i ∈ torn, i ∈ is) ∧ NearMem { s with jobs := torn ++ s.jobs } m1 m1' := by
  have hcount : ∀ j ∈ m'.jobs, j.count.toNat % a.bb = 0 := fun j hj => by
    obtain ⟨x, hx⟩ := mem_of_rel rm.jobs hj
    exact hx.count_mod
  have hi' : ∀ j ∈ is, j < m'.jobs.length := fun j hj => by rw [rm.jobs.1]; exact hw.1 j hj
  obtain ⟨out, e, hl, hg⟩ := mapM_lookup m.jobs is id (fun _ s => s) (fun j hj => by rw [r.jobs.1]; exact hi' j hj)
  obtain ⟨out', e', hl', hg'⟩ := mapM_lookup m'.jobs is id (fun _ s => s) hi'
  have key : ∀ (k i : Nat), is[k]? = some i → ∃ t t', out[k]? = some t ∧ out'[k]? = some t' ∧
      t' ∈ m'.jobs ∧ t.Twin t' ∧ (i ∉ s.jobs → t = t') := by
    intro k j hk
    obtain ⟨t, h1, h2⟩ := hg k j hk
    obtain ⟨t', h1', h2'⟩ := hg' k j hk
    obtain ⟨hi, rfl⟩ := List.getElem?_eq_some_iff.1 h1
    obtain ⟨hi', rfl⟩ := List.getElem?_eq_some_iff.1 h1'
    exact ⟨_, _, h2, h2', List.getElem_mem _, r.jobs.2 _ hi hi'⟩
  have sane' : ∀ p ∈ out', p.count.toNat % a.bb = 0 := by
    intro p hp
    obtain ⟨k, hk, rfl⟩ := List.getElem_of_mem hp
    obtain ⟨t, t', _, h2, h3, _⟩ := key k is[k] (List.getElem?_eq_getElem (by omega))
    rw [List.getElem?_eq_getElem hk] at h2
    injection h2 with h2
    rw [h2]
    exact hcount _ h3
  have sane : ∀ p ∈ out, p.count.toNat % a.bb = 0 := by
    intro p hp
    obtain ⟨k, hk, rfl⟩ := List.getElem_of_mem hp
    obtain ⟨t, t', h1, h2, h3, ⟨w, h4⟩, _⟩ := key k is[k] (List.getElem?_eq_getElem (by omega))
    rw [List.getElem?_eq_getElem hk] at h1
    injection h1 with h1
    rw [h1, h4]
    exact hcount t' h3
  have get : ∀ l : List (HashManyJob a), is.mapM (getState l) = is.mapM (fun j => do
      let s ← getState l (id j)
      (.ok s : Res (HashManyJob a))) := by
    intro l
    congr 1
    funext j
    cases h : getState l j <;> simp [h, bind, Except.bind]
  obtain ⟨left, torn, e2, hl2, ht, hleft⟩ := hashManyP_left out sane
  obtain ⟨ids, h1, h2, h3⟩ := torn_numbers id is torn
  refine ⟨{ m with jobs := (is.zip left).foldl (fun ss p => ss.set p.1 p.2) m.jobs },
    { m' with jobs := (is.zip (out'.map HashManyJob.done)).foldl (fun ss p => ss.set p.1 p.2) m'.jobs },
    ids, ?_, ?_, by omega, by simpa using h2, r.params, r.states,
    (r.jobs.mono fun i hi => List.mem_append_right ids hi).setAll (f := id) is left (out'.map HashManyJob.done)
      (fun k j x x' hk hx hx' => ?_) (by rw [List.length_map]; omega), r.hashes, r.treeParams, r.treeStates⟩
  · show (is.mapM (getState m.jobs) >>= _) = _
    rw [get, e]
    show (hashManyP true out >>= _) = _
    rw [e2]
    rfl
  · show (runBatch m'.jobs is >>= _) = _
    unfold runBatch
    rw [get, e']
    show ((hashMany out' >>= _) >>= _) = _
    rw [hashMany_eq out' sane']
    rfl
  · obtain ⟨t, t', e1, e2, _, h5, h6⟩ := key k j hk
    rw [List.getElem?_map, e2] at hx'
    injection hx' with hx'
    subst hx'
    obtain ⟨g1, g2⟩ := hleft k t x e1 hx
    refine ⟨g1.trans h5.done, fun hn => ?_⟩
    rw [List.mem_append, not_or] at hn
    rw [g2 (h3 k j hk hn.1), h6 hn.2]

end Blake2
