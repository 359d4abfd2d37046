import Verif.Model.Threads
import Verif.Properties.World
/-! # Programs with threads: C56 -/
namespace Blake2
open Spec
variable {a : Alg}

/-! ## Helpers -/

theorem Mem.take_append (m n : Mem a) : (m.append n).take m.sizes = m := by
  simp [Mem.append, Mem.take, Mem.sizes]

theorem Mem.drop_append (m n : Mem a) : (m.append n).drop m.sizes = n := by
  simp [Mem.append, Mem.drop, Mem.sizes]

theorem Mem.append_take_drop (n : Sizes) (m : Mem a) : (m.take n).append (m.drop n) = m := by
  simp [Mem.append, Mem.take, Mem.drop]

theorem Mem.append_empty (m : Mem a) : m.append {} = m := by
  simp [Mem.append]

theorem Mem.drop_sizes (m : Mem a) : m.drop m.sizes = {} := by
  simp [Mem.drop, Mem.sizes]

theorem foldl_set_take {α β : Type} (f : β → Nat) (g : β → α) (ps : List β) (l : List α) (n : Nat) (h : ∀ p ∈ ps, n ≤ f p) :
    (ps.foldl (fun l p => l.set (f p) (g p)) l).take n = l.take n ∧
    (ps.foldl (fun l p => l.set (f p) (g p)) l).length = l.length := by
  induction ps generalizing l with
  | nil => exact ⟨rfl, rfl⟩
  | cons p ps ih =>
    obtain ⟨i1, i2⟩ := ih (l.set (f p) (g p)) fun q hq => h q (by simp [hq])
    rw [List.foldl_cons, i1, i2, List.take_set_of_le (h p (by simp)), List.length_set]
    exact ⟨rfl, rfl⟩

theorem op_frame {dbg : Bool} {ss ss' : List (State a)} {o : Obs} {n : Nat} (hn : n ≤ ss.length) (op : Op Platform)
    (hb : ∀ i ∈ op.borrowsMut, n ≤ i) (e : op.exec dbg ss = .ok (ss', o)) : ss'.take n = ss.take n := by
  cases op <;> simp only [Op.exec, Op.borrowsMut, List.mem_cons, List.not_mem_nil, or_false, forall_eq, bind, Except.bind]
    at e hb
  case updateMany jobs =>
    split at e
    · cases e
    split at e
    · cases e
    cases e
    refine (foldl_set_take (fun p : (Nat × List Byte) × State a => p.1.1) Prod.snd _ ss n fun p hp => hb _ ?_).1
    exact List.mem_map.2 ⟨p.1, (List.of_mem_zip hp).1, rfl⟩
  all_goals
    repeat' split at e
    all_goals first
      | (cases e; done)
      | (cases e; first
          | rfl
          | exact List.take_append_of_le_length hn
          | exact List.take_set_of_le hb)

theorem pop_frame {dbg : Bool} {ss ss' : List (PState a)} {o : Obs} {n : Nat} (hn : n ≤ ss.length) (op : POp Platform)
    (hb : ∀ i ∈ op.borrowsMut, n ≤ i) (e : op.exec dbg ss = .ok (ss', o)) : ss'.take n = ss.take n := by
  cases op <;> simp only [POp.exec, POp.borrowsMut, List.mem_cons, List.not_mem_nil, or_false, forall_eq, bind, Except.bind]
    at e hb
  all_goals
    repeat' split at e
    all_goals first
      | (cases e; done)
      | (cases e; first
          | rfl
          | exact List.take_append_of_le_length hn
          | exact List.take_set_of_le hb)

theorem runBatch_frame {js js' : List (HashManyJob a)} {is : List Nat} {n : Nat} (hb : ∀ i ∈ is, n ≤ i)
    (e : runBatch js is = .ok js') : js'.take n = js.take n := by
  simp only [runBatch, bind, Except.bind] at e
  split at e
  · cases e
  split at e
  · cases e
  cases e
  exact (foldl_set_take (fun p : Nat × HashManyJob a => p.1) Prod.snd _ js n fun p hp => hb _ (List.of_mem_zip hp).1).1

/-- A call that takes none of the first values by `&mut` does not change them. -/
theorem exec_frame {dbg : Bool} {m n m' : Mem a} {o : Answer} (c : ApiCall Platform) (hb : c.LeavesAlone m.sizes)
    (e : c.exec dbg (m.append n) = .ok (m', o)) : m'.take m.sizes = m := by
  have h0 := Mem.take_append m n
  have hp : (m.append n).params.take m.params.length = m.params := by simp [Mem.append]
  have hs : (m.append n).states.take m.states.length = m.states := by simp [Mem.append]
  have hj : (m.append n).jobs.take m.jobs.length = m.jobs := by simp [Mem.append]
  have hh : (m.append n).hashes.take m.hashes.length = m.hashes := by simp [Mem.append]
  have ht : (m.append n).treeParams.take m.treeParams.length = m.treeParams := by simp [Mem.append]
  have hu : (m.append n).treeStates.take m.treeStates.length = m.treeStates := by simp [Mem.append]
  have lp : m.params.length ≤ (m.append n).params.length := by simp [Mem.append]
  have ls : m.states.length ≤ (m.append n).states.length := by simp [Mem.append]
  have lj : m.jobs.length ≤ (m.append n).jobs.length := by simp [Mem.append]
  have lh : m.hashes.length ≤ (m.append n).hashes.length := by simp [Mem.append]
  have lt : m.treeParams.length ≤ (m.append n).treeParams.length := by simp [Mem.append]
  have lu : m.treeStates.length ≤ (m.append n).treeStates.length := by simp [Mem.append]
  generalize m.append n = M at *
  cases c <;> simp only [ApiCall.exec, ApiCall.LeavesAlone, bind, Except.bind] at e hb
  case onStates op =>
    split at e
    · cases e
    rename_i v h
    obtain ⟨ss', o'⟩ := v
    cases e
    simp only [Mem.take, Mem.sizes, op_frame (n := m.states.length) ls op hb h, hp, hs, hj, hh, ht, hu]
  case onTreeStates op =>
    split at e
    · cases e
    rename_i v h
    obtain ⟨ss', o'⟩ := v
    cases e
    simp only [Mem.take, Mem.sizes, pop_frame (n := m.treeStates.length) lu op hb h, hp, hs, hj, hh, ht, hu]
  case hashMany is =>
    split at e
    · cases e
    rename_i v h
    cases e
    simp only [Mem.take, Mem.sizes, runBatch_frame (n := m.jobs.length) hb h, hp, hs, hj, hh, ht, hu]
  all_goals
    repeat' split at e
    all_goals first
      | (cases e; done)
      | (cases e; first
          | exact h0
          | (simp only [Mem.take, Mem.sizes, List.take_append_of_le_length lp, List.take_append_of_le_length ls,
              List.take_append_of_le_length lj, List.take_append_of_le_length lh, List.take_append_of_le_length lt,
              List.take_append_of_le_length lu, hp, hs, hj, hh, ht, hu]; done)
          | (simp only [Mem.sizes] at hb
             simp only [Mem.take, Mem.sizes, List.take_set_of_le hb, hp, hs, hj, hh, ht, hu]))

theorem mem_run_snoc (dbg : Bool) (m : Mem a) (cs : List (ApiCall Platform)) (c : ApiCall Platform) :
    m.run dbg (cs ++ [c]) = (m.run dbg cs >>= fun r => c.exec dbg r.1 >>= fun q => .ok (q.1, r.2 ++ [q.2])) := by
  induction cs generalizing m with
  | nil =>
    simp only [List.nil_append, Mem.run, bind, Except.bind]
  | cons d cs ih =>
    simp only [List.cons_append, Mem.run, ih, bind, Except.bind]
    cases d.exec dbg m with
    | error f => rfl
    | ok q =>
      simp only
      cases Mem.run dbg q.1 cs with
      | error f => rfl
      | ok r =>
        simp only
        cases c.exec dbg r.1 <;> rfl

/-- The shared part is the same throughout a run of one thread. -/
theorem run_frame {dbg : Bool} {S : Mem a} (cs : List (ApiCall Platform)) (hb : ∀ c ∈ cs, c.LeavesAlone S.sizes)
    {m m' : Mem a} {os : List Answer} (e : (S.append m).run dbg cs = .ok (m', os)) : S.append (m'.drop S.sizes) = m' := by
  have key : ∀ cs : List (ApiCall Platform), (∀ c ∈ cs, c.LeavesAlone S.sizes) → ∀ m m' os,
      (S.append m).run dbg cs = .ok (m', os) → m'.take S.sizes = S := by
    intro cs
    induction cs with
    | nil => intro _ m m' os e; cases e; exact Mem.take_append S m
    | cons c cs ih =>
      intro hb m m' os e
      simp only [Mem.run, bind, Except.bind] at e
      split at e
      · cases e
      rename_i q hq
      split at e
      · cases e
      rename_i r hr
      cases e
      have := exec_frame c (hb c (by simp)) hq
      rw [← Mem.append_take_drop S.sizes q.1, this] at hr
      exact ih (fun c hc => hb c (by simp [hc])) _ _ _ hr
  have := key cs hb m m' os e
  have h := Mem.append_take_drop S.sizes m'
  rwa [this] at h

theorem snoc_induction {α : Type} {P : List α → Prop} (nil : P []) (snoc : ∀ l x, P l → P (l ++ [x])) (l : List α) : P l := by
  rw [← l.reverse_reverse]
  induction l.reverse with
  | nil => exact nil
  | cons x xs ih => rw [List.reverse_cons]; exact snoc _ _ ih

theorem callsOf_snoc (t : Nat) (sched : List (Nat × ApiCall Platform)) (s : Nat × ApiCall Platform) :
    callsOf t (sched ++ [s]) = callsOf t sched ++ if s.1 = t then [s.2] else [] := by
  unfold callsOf
  rw [List.filter_append, List.map_append]
  by_cases h : s.1 = t <;> simp [h]

/-! ## C56 -/

/-- C56. However the calls of any number of threads are interleaved, the shared values do not change, and every thread is told
the same, holds the same and faults in the same way as if it ran alone. -/
theorem C56_threads (dbg : Bool) (S : Mem a) (L : Nat → Mem a) (sched : List (Nat × ApiCall Platform))
    (hb : ∀ s ∈ sched, s.2.LeavesAlone S.sizes) (T : Threads a) (hT : T = Threads.run dbg ⟨S, fun t => .ok (L t, [])⟩ sched) :
    T.shared = S ∧
    ∀ t, T.thread t = ((S.append (L t)).run dbg (callsOf t sched)).map fun r => (r.1.drop S.sizes, r.2) := by
  subst hT
  rw [Threads.run]
  induction sched using snoc_induction with
  | nil =>
    refine ⟨rfl, fun t => ?_⟩
    show _ = Except.ok ((S.append (L t)).drop S.sizes, [])
    rw [Mem.drop_append]
    rfl
  | snoc sched s ih =>
    obtain ⟨i1, i2⟩ := ih fun s hs => hb s (by simp [hs])
    rw [List.foldl_append, List.foldl_cons, List.foldl_nil]
    generalize sched.foldl (Threads.step dbg) ⟨S, fun t => .ok (L t, [])⟩ = T at i1 i2
    obtain ⟨t, c⟩ := s
    have hother : ∀ u, u ≠ t → callsOf u (sched ++ [(t, c)]) = callsOf u sched := by
      intro u hu
      rw [callsOf_snoc, if_neg (Ne.symm hu), List.append_nil]
    have hsame : callsOf t (sched ++ [(t, c)]) = callsOf t sched ++ [c] := by
      rw [callsOf_snoc, if_pos rfl]
    have hcs : ∀ d ∈ callsOf t sched, d.LeavesAlone S.sizes := by
      intro d hd
      obtain ⟨s, hs, rfl⟩ := List.mem_map.1 hd
      exact hb s (by simp [(List.mem_filter.1 hs).1])
    have hc : c.LeavesAlone S.sizes := hb (t, c) (by simp)
    have ht := i2 t
    cases hr : (S.append (L t)).run dbg (callsOf t sched) with
    | error f =>
      rw [hr] at ht
      change T.thread t = .error f at ht
      have hstep : Threads.step dbg T (t, c) = T := by simp only [Threads.step, ht]
      rw [hstep]
      refine ⟨i1, fun u => ?_⟩
      by_cases hu : u = t
      · subst hu
        rw [hsame, mem_run_snoc, hr, ht]
        rfl
      · rw [hother u hu]; exact i2 u
    | ok r =>
      obtain ⟨m', os⟩ := r
      rw [hr] at ht
      change T.thread t = .ok (m'.drop S.sizes, os) at ht
      have hm := run_frame _ hcs hr
      cases he : c.exec dbg m' with
      | error f =>
        have hstep : Threads.step dbg T (t, c) = { T with thread := fun u => if u = t then .error f else T.thread u } := by
          simp only [Threads.step, ht, i1, hm, he]
        rw [hstep]
        refine ⟨i1, fun u => ?_⟩
        by_cases hu : u = t
        · subst hu
          rw [hsame, mem_run_snoc, hr]
          simp only [bind, Except.bind, he, if_true]
          rfl
        · rw [hother u hu, ← i2 u]; exact if_neg hu
      | ok q =>
        obtain ⟨m'', o⟩ := q
        have hstep : Threads.step dbg T (t, c) =
            { shared := m''.take S.sizes
              thread := fun u => if u = t then .ok (m''.drop S.sizes, os ++ [o]) else T.thread u } := by
          simp only [Threads.step, ht, i1, hm, he]
        rw [hstep]
        have hf : m''.take S.sizes = S := exec_frame c hc (n := m'.drop S.sizes) (by rw [hm]; exact he)
        refine ⟨hf, fun u => ?_⟩
        by_cases hu : u = t
        · subst hu
          rw [hsame, mem_run_snoc, hr]
          simp only [bind, Except.bind, he, if_true]
          rfl
        · rw [hother u hu, ← i2 u]; exact if_neg hu

/-- C56. So two schedules of the same threads give the same results. -/
theorem C56_schedules (dbg : Bool) (S : Mem a) (L : Nat → Mem a) (sched sched' : List (Nat × ApiCall Platform))
    (hb : ∀ s ∈ sched, s.2.LeavesAlone S.sizes) (same : ∀ t, callsOf t sched = callsOf t sched') :
    Threads.run dbg ⟨S, fun t => .ok (L t, [])⟩ sched = Threads.run dbg ⟨S, fun t => .ok (L t, [])⟩ sched' := by
  have hb' : ∀ s ∈ sched', s.2.LeavesAlone S.sizes := by
    rintro ⟨t, c⟩ hs
    have : c ∈ callsOf t sched' := List.mem_map.2 ⟨(t, c), List.mem_filter.2 ⟨hs, by simp⟩, rfl⟩
    rw [← same t] at this
    obtain ⟨s, h, rfl⟩ := List.mem_map.1 this
    exact hb s (List.mem_filter.1 h).1
  obtain ⟨h1, h2⟩ := C56_threads dbg S L sched hb _ rfl
  obtain ⟨g1, g2⟩ := C56_threads dbg S L sched' hb' _ rfl
  generalize Threads.run dbg ⟨S, fun t => .ok (L t, [])⟩ sched = T at *
  generalize Threads.run dbg ⟨S, fun t => .ok (L t, [])⟩ sched' = T' at *
  obtain ⟨s, th⟩ := T
  obtain ⟨s', th'⟩ := T'
  simp only at h1 g1 h2 g2
  subst h1 g1
  congr 1
  funext t
  rw [h2, g2, same]

/-- C56. After any program that sets up the shared values, threads that use them by `&` and make valid calls are each told, in
every schedule, what the specification says. -/
theorem C56_answers (dbg : Bool) (setup : List (ApiCall Platform)) (sched : List (Nat × ApiCall Platform))
    (hv : ∀ t, World.ValidProgram a dbg {} (setup ++ callsOf t sched))
    (hb : ∀ s ∈ sched, s.2.LeavesAlone (World.after a {} setup).sizes) :
    ∃ S os, ({} : Mem a).run dbg setup = .ok (S, os) ∧
      ∀ t, ∃ m, (Threads.run dbg ⟨S, fun _ => .ok ({}, [])⟩ sched).thread t =
        .ok (m, World.answers a (World.after a {} setup) (callsOf t sched)) := by
  have split : ∀ (w : World) (cs ds : List (ApiCall Platform)), w.ValidProgram a dbg (cs ++ ds) →
      w.ValidProgram a dbg cs ∧ (w.after a cs).ValidProgram a dbg ds := by
    intro w cs
    induction cs generalizing w with
    | nil => intro ds h; exact ⟨trivial, h⟩
    | cons c cs ih =>
      intro ds h
      obtain ⟨h1, h2⟩ := ih _ ds h.2
      exact ⟨⟨h.1, h1⟩, h2⟩
  obtain ⟨S, e, r⟩ := run_refines (a := a) memRel_empty dbg setup (split _ _ _ (hv 0)).1
  refine ⟨S, _, e, fun t => ?_⟩
  have hsz : S.sizes = (World.after a {} setup).sizes := by
    simp only [Mem.sizes, World.sizes, r.params.1, r.states.1, r.jobs.1, r.hashes.1, r.treeParams.1, r.treeStates.1]
  obtain ⟨_, h2⟩ := C56_threads dbg S (fun _ => {}) sched (fun s hs => by rw [hsz]; exact hb s hs) _ rfl
  obtain ⟨m', e', _⟩ := run_refines r dbg _ (split _ _ _ (hv t)).2
  rw [h2 t, Mem.append_empty, e']
  exact ⟨_, rfl⟩

/-- Shared: keyed parameters, a state that has been fed, a hash. -/
def sampleShared : List (ApiCall Platform) :=
  [.newParams .AVX2, .set 0 (.hashLength 20), .set 0 (.key [1, 2, 3]), .toState 0, .onStates (.update 0 [9]), .hash 0 [9, 8]]

/-- One thread clones the shared state and feeds the clone; another hashes with the shared parameters, changes a clone of them and
compares with the shared hash. -/
def sampleSchedule : List (Nat × ApiCall Platform) :=
  [(0, .onStates (.clone 0)), (1, .cloneParams 0), (1, .hash 0 [9, 8]), (0, .onStates (.update 1 [8])), (1, .set 1 (.hashLength 7)),
   (0, .finalize 1), (1, .eqHash 0 1), (0, .eqHash 0 1), (1, .hash 1 [9, 8]), (0, .onStates (.finalize 0)), (1, .eqHash 0 2)]

example : (∀ t, World.ValidProgram .b true {} (sampleShared ++ callsOf t sampleSchedule)) ∧
    (∀ s ∈ sampleSchedule, s.2.LeavesAlone (World.after .b {} sampleShared).sizes) := by
  refine ⟨fun t => ?_, ?_⟩
  · match t with
    | 0 => decide +kernel
    | 1 => decide +kernel
    | t + 2 =>
      have : callsOf (t + 2) sampleSchedule = [] := by simp [callsOf, sampleSchedule]
      rw [this]
      decide +kernel
  · simp [sampleSchedule, ApiCall.LeavesAlone, Op.borrowsMut, sampleShared, World.after, World.sizes, ApiCall.next, Op.next]

/-- The hypothesis is needed: if a thread could change shared parameters, what the other is told would depend on the schedule. -/
example : ∃ (S : Mem .b) (c d : Nat × ApiCall Platform), c.1 = 0 ∧ d.1 = 1 ∧ ¬ c.2.LeavesAlone S.sizes ∧
    ((Threads.run true ⟨S, fun _ => .ok ({}, [])⟩ [c, d]).thread 1).map Prod.snd ≠
      ((Threads.run true ⟨S, fun _ => .ok ({}, [])⟩ [d, c]).thread 1).map Prod.snd := by
  refine ⟨{ params := [Params.new .b .Portable] }, (0, .set 0 (.fanout 2)), (1, .debugParams 0), rfl, rfl,
    Nat.not_succ_le_zero 0, ?_⟩
  have key : ∀ r r' : Res (List Answer), r.toOption ≠ r'.toOption → r ≠ r' := by
    rintro r _ h rfl
    exact h rfl
  apply key
  decide +kernel

end Blake2
