import Verif.Proofs.NWayLoop
import Verif.Model.Many
import Verif.Proofs.BSse41Laws
import Verif.Proofs.SAvx2Laws
/-! # The batch scheduler runs every job exactly once, whatever the number and the lengths of the jobs -/
namespace Blake2
namespace Many

variable {a : Alg} {ι E : Type} [DecidableEq ι]

/-- A source whose words can be written through a job's pointer. -/
structure SrcLaws (src : Source a ι E) : Prop where
  get_set : ∀ e w, src.getWords (src.setWords e w) = w
  set_set : ∀ e w w', src.setWords (src.setWords e w) w' = src.setWords e w'

/-- What must be known about visiting the element `e0` at position `i`, for the element to end as `ef`. -/
def PullOk (src : Source a ι E) (s : Stride) (fin : Bool) (i : ι) (e0 ef : E) : Prop :=
  ∃ e job, src.pull i e0 = .ok (e, job) ∧
    match job with
    | none => ef = e
    | some j => j.id = i ∧
      let j' : Job a := { input := j.input, words := src.getWords e, count := j.count, lastNode := j.lastNode }
      j'.Ok fin ∧ ef = src.setWords e (j'.target s fin)

/-- A job still to be completed. -/
def Pend (src : Source a ι E) (s : Stride) (fin : Bool) (final : ι → E) (mem : ι → E) (r : JobRef a ι) : Prop :=
  (deref src mem r).Ok fin ∧ src.setWords (mem r.id) ((deref src mem r).target s fin) = final r.id

/-- A job that has just been run: it is complete if its input is empty. -/
def Run (src : Source a ι E) (s : Stride) (fin : Bool) (final : ι → E) (mem : ι → E) (r : JobRef a ι) : Prop :=
  (r.input = [] → mem r.id = final r.id) ∧ (r.input ≠ [] → Pend src s fin final mem r)

/-- The invariant of the scheduler: the elements not visited are as at the start, the jobs in the vector are pending,
everything else is final. -/
structure Inv (src : Source a ι E) (s : Stride) (fin : Bool) (mem0 final : ι → E) (mem : ι → E) (queue : List ι)
    (vec : List (JobRef a ι)) : Prop where
  nodup : (queue ++ vec.map (·.id)).Nodup
  queued : ∀ i ∈ queue, mem i = mem0 i
  pend : ∀ r ∈ vec, Pend src s fin final mem r
  rest : ∀ i, i ∉ queue → i ∉ vec.map (·.id) → mem i = final i

theorem store_same (mem : ι → E) (i : ι) (e : E) : store mem i e i = e := by simp [store]
theorem store_ne (mem : ι → E) {i j : ι} (e : E) (h : j ≠ i) : store mem i e j = mem j := by simp [store, h]

theorem Pend.congr {src : Source a ι E} {s : Stride} {fin : Bool} {final mem mem' : ι → E} {r : JobRef a ι}
    (h : mem' r.id = mem r.id) (hp : Pend src s fin final mem r) : Pend src s fin final mem' r := by
  unfold Pend deref at *
  rw [h]; exact hp

/-- Visiting the next element. -/
theorem pull_inv {src : Source a ι E} (L : SrcLaws src) {s : Stride} {fin : Bool} {mem0 final mem : ι → E} {i : ι}
    {queue : List ι} {vec : List (JobRef a ι)} (hpull : PullOk src s fin i (mem0 i) (final i))
    (h : Inv src s fin mem0 final mem (i :: queue) vec) :
    ∃ e job, src.pull i (mem i) = .ok (e, job) ∧
      match job with
      | none => Inv src s fin mem0 final (store mem i e) queue vec
      | some j => Inv src s fin mem0 final (store mem i e) queue (vec ++ [j]) := by
  obtain ⟨e, job, hp, hj⟩ := hpull
  have hnd := h.nodup
  simp only [List.cons_append, List.nodup_cons, List.mem_append, not_or] at hnd
  obtain ⟨⟨hiq, hiv⟩, hnd'⟩ := hnd
  refine ⟨e, job, by rw [h.queued i (by simp)]; exact hp, ?_⟩
  have hq : ∀ j ∈ queue, store mem i e j = mem0 j := fun j hj => by
    have hne : j ≠ i := by intro he; rw [he] at hj; exact hiq hj
    rw [store_ne _ _ hne]; exact h.queued j (by simp [hj])
  have hpend : ∀ r ∈ vec, Pend src s fin final (store mem i e) r := fun r hr =>
    (h.pend r hr).congr (store_ne _ _ (by
      intro he; exact hiv (List.mem_map.2 ⟨r, hr, he⟩)))
  cases job with
  | none =>
    refine ⟨hnd', hq, hpend, ?_⟩
    intro j hjq hjv
    by_cases hji : j = i
    · subst hji; rw [store_same]; exact hj.symm
    · rw [store_ne _ _ hji]; exact h.rest j (by simp [hji, hjq]) hjv
  | some j =>
    obtain ⟨hid, hok, hfinal⟩ := hj
    refine ⟨?_, hq, ?_, ?_⟩
    · rw [List.map_append, ← List.append_assoc]
      rw [List.nodup_append]
      refine ⟨hnd', by simp, ?_⟩
      intro x hx y hy
      simp only [List.map_cons, List.map_nil, List.mem_cons, List.not_mem_nil, or_false] at hy
      subst hy
      rw [hid]
      rintro rfl
      rcases List.mem_append.1 hx with h | h
      · exact hiq h
      · exact hiv h
    · intro r hr
      rcases List.mem_append.1 hr with hr | hr
      · exact hpend r hr
      · simp only [List.mem_cons, List.not_mem_nil, or_false] at hr
        subst hr
        unfold Pend deref
        rw [hid, store_same]
        exact ⟨hok, hfinal.symm⟩
    · intro k hkq hkv
      simp only [List.map_append, List.map_cons, List.map_nil, List.mem_append, List.mem_cons, List.not_mem_nil, or_false,
        not_or] at hkv
      have hki : k ≠ i := by rw [← hid]; exact hkv.2
      rw [store_ne _ _ hki]
      exact h.rest k (by simp [hki, hkq]) hkv.1

theorem fillJobsVec_inv {src : Source a ι E} (L : SrcLaws src) {s : Stride} {fin : Bool} {mem0 final : ι → E}
    (T : Nat) (hT : T ≤ maxDegree a) (queue : List ι) (mem : ι → E) (vec : List (JobRef a ι))
    (hpull : ∀ i ∈ queue, PullOk src s fin i (mem0 i) (final i))
    (h : Inv src s fin mem0 final mem queue vec) :
    ∃ mem' queue' vec', fillJobsVec src T mem queue vec = .ok (mem', queue', vec') ∧
      Inv src s fin mem0 final mem' queue' vec' ∧ (∀ i ∈ queue', i ∈ queue) ∧
      queue'.length + vec'.length ≤ queue.length + vec.length ∧ vec'.length ≤ max vec.length T := by
  induction queue generalizing mem vec with
  | nil => exact ⟨mem, [], vec, rfl, h, by simp, Nat.le_refl _, Nat.le_max_left _ _⟩
  | cons i queue ih =>
    rw [fillJobsVec]
    by_cases hlt : vec.length < T
    · rw [if_pos hlt]
      obtain ⟨e, job, hp, hi⟩ := pull_inv L (hpull i (by simp)) h
      simp only [hp, bind, Except.bind]
      cases job with
      | none =>
        obtain ⟨m, q, v, h1, h2, h3, h4, h5⟩ := ih _ _ (fun j hj => hpull j (by simp [hj])) hi
        refine ⟨m, q, v, h1, h2, fun j hj => by simp [h3 j hj], by simp; omega, h5⟩
      | some j =>
        have hpush : push vec j = .ok (vec ++ [j]) := by rw [push, if_pos (by omega)]
        obtain ⟨m, q, v, h1, h2, h3, h4, h5⟩ := ih _ _ (fun j hj => hpull j (by simp [hj])) hi
        simp only [hpush]
        refine ⟨m, q, v, h1, h2, fun j hj => by simp [h3 j hj], ?_, ?_⟩
        · simp at h4 ⊢; omega
        · simp at h5; omega
    · rw [if_neg hlt]
      exact ⟨mem, i :: queue, vec, rfl, h, by simp, Nat.le_refl _, Nat.le_max_left _ _⟩

/-- Eviction removes exactly the finished jobs among the first `A.length`. -/
theorem evictFinished_eq (A B : List (JobRef a ι)) :
    evictFinished (A ++ B) A.length = .ok (A.filter (fun r => !r.input.isEmpty) ++ B) := by
  unfold evictFinished
  induction hn : A.length generalizing A B with
  | zero =>
    have : A = [] := List.eq_nil_of_length_eq_zero hn
    subst this; rfl
  | succ n ih =>
    obtain ⟨A', x, rfl⟩ : ∃ A' x, A = A' ++ [x] := by
      rcases List.eq_nil_or_concat A with h | ⟨L, b, h⟩
      · subst h; simp at hn
      · exact ⟨L, b, by simpa using h⟩
    have hA' : A'.length = n := by simpa using hn
    rw [List.range_succ, List.reverse_append, List.reverse_singleton, List.singleton_append, List.foldlM_cons]
    have hstep : evictStep (A' ++ [x] ++ B) n = .ok (if x.input.isEmpty then A' ++ B else A' ++ ([x] ++ B)) := by
      have hlen : n < (A' ++ [x] ++ B).length := by simp; omega
      have hget : (A' ++ [x] ++ B)[n]? = some x := by
        rw [List.append_assoc, List.getElem?_append_right (by omega), hA', Nat.sub_self]; rfl
      have her : (A' ++ [x] ++ B).eraseIdx n = A' ++ B := by
        rw [List.append_assoc, List.eraseIdx_append_of_length_le (by omega), hA', Nat.sub_self]; rfl
      simp only [evictStep, rassert, hlen, hget, her, decide_true, ↓reduceIte, bind, Except.bind, gt_iff_lt]
      by_cases hx : x.input.isEmpty <;> simp [hx]
    rw [hstep]
    simp only [bind, Except.bind]
    by_cases hx : x.input.isEmpty
    · rw [if_pos hx, ih A' B hA']
      simp [hx]
    · rw [if_neg hx, ih A' ([x] ++ B) hA']
      simp [hx]

theorem writeBack_spec (src : Source a ι E) (ps : List (JobRef a ι × Job a)) (mem : ι → E)
    (hnd : (ps.map (·.1.id)).Nodup) :
    (writeBack src mem ps).2 = ps.map (fun p =>
      { id := p.1.id, input := p.2.input, count := p.2.count, lastNode := p.2.lastNode }) ∧
    (∀ p ∈ ps, (writeBack src mem ps).1 p.1.id = src.setWords (mem p.1.id) p.2.words) ∧
    (∀ i, i ∉ ps.map (·.1.id) → (writeBack src mem ps).1 i = mem i) := by
  induction ps generalizing mem with
  | nil => exact ⟨rfl, by simp, fun _ _ => rfl⟩
  | cons p ps ih =>
    obtain ⟨r, j⟩ := p
    simp only [List.map_cons, List.nodup_cons] at hnd
    obtain ⟨h1, h2, h3⟩ := ih (store mem r.id (src.setWords (mem r.id) j.words)) hnd.2
    refine ⟨?_, ?_, ?_⟩
    · simp only [writeBack, h1, List.map_cons]
    · intro p hp
      simp only [writeBack]
      rcases List.mem_cons.1 hp with rfl | hp
      · rw [h3 _ hnd.1, store_same]
      · rw [h2 p hp, store_ne]
        rintro he; exact hnd.1 (List.mem_map.2 ⟨p, hp, he⟩)
    · intro i hi
      simp only [List.map_cons, List.mem_cons, not_or] at hi
      simp only [writeBack]
      rw [h3 i hi.2, store_ne _ _ hi.1]

/-- What is known of an N-way loop: `compressLoop_spec`. -/
def LoopOk (s : Stride) (fin : Bool) (N : Nat) (loopN : Vector (Job a) N → Res (Vector (Job a) N)) : Prop :=
  ∀ jobs : Vector (Job a) N, (∀ i : Fin N, (jobs[i]).Ok fin) →
    ∃ jobs', loopN jobs = .ok jobs' ∧ (∀ i : Fin N, JobStep s fin jobs[i] jobs'[i]) ∧ ∃ i : Fin N, (jobs'[i]).input = []

/-- One N-way run followed by eviction. -/
theorem wide_inv {src : Source a ι E} (L : SrcLaws src) {s : Stride} {fin : Bool} {mem0 final : ι → E}
    {N : Nat} {loopN : Vector (Job a) N → Res (Vector (Job a) N)} (hloop : LoopOk s fin N loopN)
    (queue : List ι) (mem : ι → E) (vec : List (JobRef a ι)) (hvec : N ≤ vec.length)
    (h : Inv src s fin mem0 final mem queue vec) :
    ∃ mem' vec₁ vec₂, runWide src N loopN mem vec = .ok (mem', vec₁) ∧ evictFinished vec₁ N = .ok vec₂ ∧
      Inv src s fin mem0 final mem' queue vec₂ ∧ vec₂.length < vec.length := by
  have hlen : (vec.take N).length = N := by rw [List.length_take]; omega
  unfold runWide
  rw [dif_pos hlen]
  obtain ⟨jobs, hjobs⟩ : ∃ jobs : Vector (Job a) N, jobs = ⟨((vec.take N).map (deref src mem)).toArray, by simpa using hlen⟩ :=
    ⟨_, rfl⟩
  have hget : ∀ i : Fin N, jobs[i] = deref src mem (vec[i.1]'(by omega)) := fun i => by
    rw [hjobs]; simp
  obtain ⟨jobs', hrun, hstep, i0, hi0⟩ := hloop jobs (fun i => by
    rw [hget i]; exact (h.pend _ (List.getElem_mem _)).1)
  rw [← hjobs]
  simp only [hrun, bind, Except.bind]
  have hsplit : vec = vec.take N ++ vec.drop N := (List.take_append_drop N vec).symm
  have hnd := h.nodup
  rw [List.nodup_append] at hnd
  obtain ⟨hqnd, hvnd, hdisj⟩ := hnd
  have hvnd' : ((vec.take N).map (·.id) ++ (vec.drop N).map (·.id)).Nodup := by
    rw [← List.map_append, List.take_append_drop]; exact hvnd
  rw [List.nodup_append] at hvnd'
  obtain ⟨hA, hB, hAB⟩ := hvnd'
  have hziplen : ((vec.take N).zip jobs'.toList).length = N := by simp [hlen]
  have hzid : ((vec.take N).zip jobs'.toList).map (·.1.id) = (vec.take N).map (·.id) := by
    have : ((vec.take N).zip jobs'.toList).map (·.1) = vec.take N := by
      rw [List.map_fst_zip]; simp [hlen]
    conv => rhs; rw [← this, List.map_map]
    rfl
  obtain ⟨hrefs, hwr, hun⟩ := writeBack_spec src ((vec.take N).zip jobs'.toList) mem (by rw [hzid]; exact hA)
  obtain ⟨wb, hwb⟩ : ∃ wb, wb = writeBack src mem ((vec.take N).zip jobs'.toList) := ⟨_, rfl⟩
  rw [← hwb] at hrefs hwr hun ⊢
  have hreflen : wb.2.length = N := by rw [hrefs, List.length_map, hziplen]
  have hrid : wb.2.map (·.id) = (vec.take N).map (·.id) := by
    rw [hrefs, List.map_map, ← hzid]; rfl
  -- the jobs that were run
  have hrunA : ∀ r ∈ wb.2, Run src s fin final wb.1 r := by
    intro r hr
    rw [hrefs] at hr
    obtain ⟨p, hp, rfl⟩ := List.mem_map.1 hr
    obtain ⟨k, hk, hkp⟩ := List.getElem_of_mem hp
    have hkN : k < N := by rw [hziplen] at hk; exact hk
    have hp1 : p.1 = vec[k]'(by omega) := by rw [← hkp]; simp
    have hp2 : p.2 = jobs'[k] := by rw [← hkp]; simp
    have hst := hstep ⟨k, hkN⟩
    rw [hget ⟨k, hkN⟩] at hst
    simp only [Fin.getElem_fin] at hst
    rw [← hp1, ← hp2] at hst
    have hpend := h.pend p.1 (by rw [hp1]; exact List.getElem_mem _)
    have hw := hwr p hp
    refine ⟨fun he => ?_, fun hne => ?_⟩
    · simp only at he ⊢
      rw [hw, hst.done he]; exact hpend.2
    · simp only at hne
      obtain ⟨h1, h2, h3⟩ := hst.more hne
      have hd : deref src wb.1 { id := p.1.id, input := p.2.input, count := p.2.count, lastNode := p.2.lastNode } = p.2 := by
        simp only [deref, hw, L.get_set]
      unfold Pend
      rw [hd]
      refine ⟨h2, ?_⟩
      simp only
      rw [hw, L.set_set, h1]; exact hpend.2
  have hev := evictFinished_eq wb.2 (vec.drop N)
  rw [hreflen] at hev
  refine ⟨wb.1, wb.2 ++ vec.drop N, _, rfl, hev, ?_, ?_⟩
  · have hfid : ∀ x ∈ (wb.2.filter (fun r => !r.input.isEmpty) ++ vec.drop N).map (·.id), x ∈ vec.map (·.id) := by
      intro x hx
      rw [hsplit, List.map_append, List.mem_append]
      rw [List.map_append, List.mem_append] at hx
      rcases hx with hx | hx
      · left; rw [← hrid]
        obtain ⟨r, hr, rfl⟩ := List.mem_map.1 hx
        exact List.mem_map.2 ⟨r, (List.mem_filter.1 hr).1, rfl⟩
      · exact .inr hx
    constructor
    · rw [List.nodup_append]
      refine ⟨hqnd, ?_, fun x hx y hy => hdisj x hx y (hfid y hy)⟩
      rw [List.map_append, List.nodup_append]
      refine ⟨?_, hB, ?_⟩
      · have hsub : ((wb.2.filter (fun r => !r.input.isEmpty)).map (·.id)).Sublist (wb.2.map (·.id)) :=
          List.Sublist.map _ List.filter_sublist
        rw [hrid] at hsub
        exact hsub.nodup hA
      · intro x hx y hy
        obtain ⟨r, hr, rfl⟩ := List.mem_map.1 hx
        exact hAB _ (by rw [← hrid]; exact List.mem_map.2 ⟨r, (List.mem_filter.1 hr).1, rfl⟩) y hy
    · intro i hi
      rw [hun i (by
        rw [hzid]; intro hm
        exact hdisj i hi i (by rw [hsplit, List.map_append, List.mem_append]; exact .inl hm) rfl)]
      exact h.queued i hi
    · intro r hr
      rcases List.mem_append.1 hr with hr | hr
      · obtain ⟨hr1, hr2⟩ := List.mem_filter.1 hr
        exact (hrunA r hr1).2 (by intro he; simp [he] at hr2)
      · refine (h.pend r (List.mem_of_mem_drop hr)).congr (hun _ ?_)
        rw [hzid]; intro hm
        exact hAB _ hm _ (List.mem_map.2 ⟨r, hr, rfl⟩) rfl
    · intro i hiq hiv
      by_cases hiA : i ∈ (vec.take N).map (·.id)
      · rw [← hrid] at hiA
        obtain ⟨r, hr, rfl⟩ := List.mem_map.1 hiA
        by_cases he : r.input = []
        · exact (hrunA r hr).1 he
        · exfalso; apply hiv
          rw [List.map_append, List.mem_append]
          left
          exact List.mem_map.2 ⟨r, List.mem_filter.2 ⟨hr, by simp [he]⟩, rfl⟩
      · rw [hun i (by rw [hzid]; exact hiA)]
        apply h.rest i hiq
        rw [hsplit, List.map_append, List.mem_append]
        rintro (hm | hm)
        · exact hiA hm
        · apply hiv; rw [List.map_append, List.mem_append]; exact .inr hm
  · have h1 : (wb.2.filter (fun r => !r.input.isEmpty)).length < wb.2.length := by
      apply List.length_filter_lt_length_iff_exists.2
      have hk : i0.1 < wb.2.length := by rw [hreflen]; exact i0.2
      refine ⟨wb.2[i0.1], List.getElem_mem _, ?_⟩
      have : (wb.2[i0.1]).input = (jobs'[i0]).input := by
        simp only [hrefs, List.getElem_map, List.getElem_zip]
        simp
      rw [this, hi0]; simp
    rw [List.length_append, List.length_drop]
    omega

theorem levelIter_inv {src : Source a ι E} (L : SrcLaws src) {s : Stride} {fin : Bool} {mem0 final : ι → E}
    {N : Nat} (hN : N ≤ maxDegree a) {loopN : Vector (Job a) N → Res (Vector (Job a) N)} (hloop : LoopOk s fin N loopN)
    (fuel : Nat) (queue : List ι) (mem : ι → E) (vec : List (JobRef a ι))
    (hpull : ∀ i ∈ queue, PullOk src s fin i (mem0 i) (final i)) (hf : queue.length + vec.length < fuel)
    (h : Inv src s fin mem0 final mem queue vec) :
    ∃ mem' queue' vec', levelIter src N loopN fuel mem queue vec = .ok (mem', queue', vec') ∧
      Inv src s fin mem0 final mem' queue' vec' ∧ (∀ i ∈ queue', i ∈ queue) := by
  induction fuel generalizing queue mem vec with
  | zero => omega
  | succ fuel ih =>
    rw [levelIter]
    obtain ⟨m1, q1, v1, h1, h2, h3, h4, _⟩ := fillJobsVec_inv L N hN queue mem vec hpull h
    simp only [h1, bind, Except.bind]
    by_cases hlt : v1.length < N
    · rw [if_pos hlt]
      exact ⟨m1, q1, v1, rfl, h2, h3⟩
    · rw [if_neg hlt]
      obtain ⟨m2, v2, v3, h5, h6, h7, h8⟩ := wide_inv L hloop q1 m1 v1 (by omega) h2
      simp only [h5, h6]
      obtain ⟨m4, q4, v4, h9, h10, h11⟩ := ih q1 m2 v3 (fun i hi => hpull i (h3 i hi)) (by omega) h7
      exact ⟨m4, q4, v4, h9, h10, fun i hi => h3 i (h11 i hi)⟩

theorem level_inv {src : Source a ι E} (L : SrcLaws src) {s : Stride} {fin : Bool} {mem0 final : ι → E}
    {N degree : Nat} (hN : N ≤ maxDegree a) {loopN : Vector (Job a) N → Res (Vector (Job a) N)}
    (hloop : N ≤ degree → LoopOk s fin N loopN)
    (queue : List ι) (mem : ι → E) (vec : List (JobRef a ι))
    (hpull : ∀ i ∈ queue, PullOk src s fin i (mem0 i) (final i))
    (h : Inv src s fin mem0 final mem queue vec) :
    ∃ mem' queue' vec', level src degree N loopN mem queue vec = .ok (mem', queue', vec') ∧
      Inv src s fin mem0 final mem' queue' vec' ∧ (∀ i ∈ queue', i ∈ queue) := by
  unfold level
  by_cases hd : degree ≥ N
  · rw [if_pos hd]
    exact levelIter_inv L hN (hloop hd) _ queue mem vec hpull (by omega) h
  · rw [if_neg hd]
    exact ⟨mem, queue, vec, rfl, h, fun _ hi => hi⟩

theorem runOne_inv {src : Source a ι E} {s : Stride} {fin : Bool} {mem0 final : ι → E} (imp : Platform)
    (queue : List ι) (mem : ι → E) (r : JobRef a ι) (vec : List (JobRef a ι))
    (h : Inv src s fin mem0 final mem queue (r :: vec)) :
    ∃ mem', runOne src imp fin s mem r = .ok mem' ∧ Inv src s fin mem0 final mem' queue vec := by
  have hp := h.pend r (by simp)
  unfold runOne
  rw [compress1_eq a imp r.input _ _ _ _ _ hp.1.input]
  refine ⟨_, rfl, ?_⟩
  have hfin : src.setWords (mem r.id) (absorb a s fin r.lastNode (src.getWords (mem r.id)) r.count r.input) = final r.id := hp.2
  rw [hfin]
  have hnd := h.nodup
  rw [List.nodup_append] at hnd
  obtain ⟨hq, hv, hd⟩ := hnd
  simp only [List.map_cons, List.nodup_cons] at hv
  constructor
  · rw [List.nodup_append]
    exact ⟨hq, hv.2, fun x hx y hy => hd x hx y (by simp [hy])⟩
  · intro i hi
    rw [store_ne]
    · exact h.queued i hi
    · exact hd i hi r.id (by simp)
  · intro x hx
    refine (h.pend x (by simp [hx])).congr (store_ne _ _ ?_)
    intro he; exact hv.1 (List.mem_map.2 ⟨x, hx, he⟩)
  · intro i hiq hiv
    by_cases hi : i = r.id
    · subst hi; rw [store_same]
    · rw [store_ne _ _ hi]
      exact h.rest i hiq (by simp only [List.map_cons, List.mem_cons, not_or]; exact ⟨hi, hiv⟩)

theorem foldl_runOne_inv {src : Source a ι E} {s : Stride} {fin : Bool} {mem0 final : ι → E} (imp : Platform)
    (queue : List ι) (mem : ι → E) (vec : List (JobRef a ι)) (h : Inv src s fin mem0 final mem queue vec) :
    ∃ mem', vec.foldlM (runOne src imp fin s) mem = .ok mem' ∧ Inv src s fin mem0 final mem' queue [] := by
  induction vec generalizing mem with
  | nil => exact ⟨mem, rfl, h⟩
  | cons r vec ih =>
    obtain ⟨m1, h1, h2⟩ := runOne_inv imp queue mem r vec h
    obtain ⟨m2, h3, h4⟩ := ih m1 h2
    refine ⟨m2, ?_, h4⟩
    rw [List.foldlM_cons, h1]; exact h3

theorem runQueue_inv {src : Source a ι E} (L : SrcLaws src) {s : Stride} {fin : Bool} {mem0 final : ι → E} (imp : Platform)
    (queue : List ι) (mem : ι → E) (hpull : ∀ i ∈ queue, PullOk src s fin i (mem0 i) (final i))
    (h : Inv src s fin mem0 final mem queue []) :
    ∃ mem', runQueue src imp fin s mem queue = .ok mem' ∧ Inv src s fin mem0 final mem' [] [] := by
  induction queue generalizing mem with
  | nil => exact ⟨mem, rfl, h⟩
  | cons i queue ih =>
    obtain ⟨e, job, hp, hi⟩ := pull_inv L (hpull i (by simp)) h
    rw [runQueue]
    simp only [hp, bind, Except.bind]
    cases job with
    | none => exact ih _ (fun j hj => hpull j (by simp [hj])) hi
    | some j =>
      obtain ⟨m1, h1, h2⟩ := runOne_inv imp queue _ j [] hi
      simp only [h1]
      exact ih _ (fun j hj => hpull j (by simp [hj])) h2

end Many

open Many in
/-- The N-way loops chosen by the platform satisfy `compressLoop_spec`. -/
theorem compressHi_ok (a : Alg) (imp : Platform) (s : Stride) (fin : Bool) (h : hiDegree a ≤ implDegree a imp) :
    LoopOk s fin (hiDegree a) (fun jobs => compressHi a imp jobs fin s) := by
  cases a <;> cases imp <;> try (exact absurd h (by decide))
  · exact fun jobs hok => compressLoop_spec BAvx2.laws BAvx2.tlaws (by decide) s fin jobs hok
  · exact fun jobs hok => compressLoop_spec SAvx2.laws SAvx2.tlaws (by decide) s fin jobs hok

open Many in
theorem compressLo_ok (a : Alg) (imp : Platform) (s : Stride) (fin : Bool) (h : loDegree a ≤ implDegree a imp) :
    LoopOk s fin (loDegree a) (fun jobs => compressLo a imp jobs fin s) := by
  cases a <;> cases imp <;> try (exact absurd h (by decide))
  · exact fun jobs hok => compressLoop_spec BSse41.laws BSse41.tlaws (by decide) s fin jobs hok
  · exact fun jobs hok => compressLoop_spec BSse41.laws BSse41.tlaws (by decide) s fin jobs hok
  · exact fun jobs hok => compressLoop_spec SSse41.laws SSse41.tlaws (by decide) s fin jobs hok
  · exact fun jobs hok => compressLoop_spec SSse41.laws SSse41.tlaws (by decide) s fin jobs hok

open Many in
/-- **The batch scheduler.** On every platform, for every number of jobs of every lengths, `compress_many` faults nowhere
and leaves every element in the state it would have if it had been processed alone. -/
theorem compressMany_eq {a : Alg} {ι E : Type} [DecidableEq ι] {src : Source a ι E} (L : SrcLaws src) (imp : Platform)
    (fin : Bool) (s : Stride) (mem0 final : ι → E) (queue : List ι) (hnd : queue.Nodup)
    (hpull : ∀ i ∈ queue, PullOk src s fin i (mem0 i) (final i)) (hrest : ∀ i, i ∉ queue → mem0 i = final i) :
    compressMany src imp fin s mem0 queue = .ok final := by
  have h0 : Inv src s fin mem0 final mem0 queue [] := ⟨by simpa using hnd, fun _ _ => rfl, by simp, fun i hi _ => hrest i hi⟩
  have hhi : hiDegree a ≤ maxDegree a := by cases a <;> decide
  have hlo : loDegree a ≤ maxDegree a := by cases a <;> decide
  obtain ⟨m1, q1, v1, h1, h2, h3⟩ := level_inv L hhi (fun h => compressHi_ok a imp s fin h) queue mem0 [] hpull h0
  obtain ⟨m2, q2, v2, h4, h5, h6⟩ := level_inv L hlo (fun h => compressLo_ok a imp s fin h) q1 m1 v1
    (fun i hi => hpull i (h3 i hi)) h2
  obtain ⟨m3, h7, h8⟩ := foldl_runOne_inv imp q2 m2 v2 h5
  obtain ⟨m4, h9, h10⟩ := runQueue_inv L imp q2 m3 (fun i hi => hpull i (h3 i (h6 i hi))) h8
  unfold compressMany
  simp only [h1, h4, h7, h9, bind, Except.bind]
  congr 1
  funext i
  exact h10.rest i (by simp) (by simp)

end Blake2
