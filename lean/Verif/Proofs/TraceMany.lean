import Verif.Proofs.TraceSerial
import Verif.Proofs.ManySpec
import Verif.Proofs.Sched
/-! # The compressions run by the batch calls -/
namespace Blake2
open Traced

section
variable {a : Alg} {N : Nat} {R ι : Type}

/-- The calls a job still has to make. -/
def Job.calls (s : Stride) (fin : Bool) (j : Job a) : List (Call a) := absorbCalls a s fin j.lastNode j.count j.input

theorem absorbCalls_ne_nil (s : Stride) (fin ln : Bool) (c : Count a) (x : List Byte) : absorbCalls a s fin ln c x ≠ [] := by
  rw [absorbCalls]; split <;> simp

/-- A call that is never made. -/
def noCall (a : Alg) : Call a := ⟨[], 0, 0, 0⟩

/-- The first `n` calls of each lane, lane by lane in lockstep. -/
def passes (ids : Vector ι N) : Nat → (Fin N → List (Call a)) → List (Pass a ι)
  | 0, _ => []
  | n + 1, cs => ((List.finRange N).map fun i => (ids[i], (cs i).headD (noCall a))) :: passes ids n fun i => (cs i).tail

theorem loopIterT_eq {o : VImpl a N R} (L : LaneLaws o) (ids : Vector ι N) (s : Stride) (fin : Bool)
    (jobs : Vector (Job a) N) (K m : Nat) (hm : K = 0 ∨ K * s.padded a ≤ m)
    (hK : ∀ i : Fin N, K = 0 ∨ K * s.padded a < (jobs[i]).input.length)
    (F : NWay.Fin_ a N R) (hoff : F.offset = K * s.padded a)
    (hblk : ∀ i : Fin N, F.blocks[i] = Spec.pad a.bb (((jobs[i]).input.drop (K * s.padded a)).take a.bb))
    (hdel : ∀ i : Fin N, o.ln i F.countsDelta = BitVec.ofNat a.w (min a.bb ((jobs[i]).input.length - K * s.padded a)))
    (hlb : ∀ i : Fin N, o.ln i F.lastBlock =
      flagWord a (fin && decide ((jobs[i]).input.length - K * s.padded a ≤ s.padded a)))
    (hln : ∀ i : Fin N, o.ln i F.lastNode =
      flagWord a (fin && (decide ((jobs[i]).input.length - K * s.padded a ≤ s.padded a) && (jobs[i]).lastNode)))
    (fuel k : Nat) (hk : k ≤ K) (hf : K - k < fuel) (h : Vector R 8) (lo hi : R)
    (hcnt : ∀ i : Fin N, (o.cnt i lo hi).toNat % a.bb = 0) :
    ∃ h' lo' hi', NWay.loopIterT o ids (jobs.map (·.input)) m F s fuel (k * s.padded a) h lo hi =
        ret (K * s.padded a, h', lo', hi') (passes ids (K - k + 1) fun i =>
          absorbCalls a s fin (jobs[i]).lastNode (o.cnt i lo hi) ((jobs[i]).input.drop (k * s.padded a))) ∧
      ∀ i : Fin N,
        ((jobs[i]).input.length - K * s.padded a ≤ s.padded a →
          (absorbCalls a s fin (jobs[i]).lastNode (o.cnt i lo hi) ((jobs[i]).input.drop (k * s.padded a))).length =
            K - k + 1) ∧
        (¬ (jobs[i]).input.length - K * s.padded a ≤ s.padded a →
          absorbCalls a s fin (jobs[i]).lastNode (o.cnt i lo' hi') ((jobs[i]).input.drop ((K + 1) * s.padded a)) =
          (absorbCalls a s fin (jobs[i]).lastNode (o.cnt i lo hi) ((jobs[i]).input.drop (k * s.padded a))).drop
            (K - k + 1)) := by
  have hP := padded_pos a s
  have hbb := bb_le_padded a s
  induction fuel generalizing k h lo hi with
  | zero => omega
  | succ fuel ih =>
    rw [NWay.loopIterT]
    by_cases hkK : k = K
    · subst hkK
      rw [hoff]
      simp only [↓reduceIte]
      rw [lift_bind rfl]
      simp only [Nat.sub_self, Nat.zero_add]
      have hadd : ∀ i, o.cnt i (NWay.addToCounts o lo hi F.countsDelta).1 (NWay.addToCounts o lo hi F.countsDelta).2 =
          o.cnt i lo hi + BitVec.ofNat _ (min a.bb ((jobs[i]).input.length - k * s.padded a)) := fun i =>
        addToCounts_lane L i lo hi F.countsDelta _ (hdel i) (Nat.min_le_left _ _) (hcnt i)
      have hhead : ∀ i : Fin N, (absorbCalls a s fin (jobs[i]).lastNode (o.cnt i lo hi)
          ((jobs[i]).input.drop (k * s.padded a))).headD (noCall a) =
          ⟨F.blocks[i], o.cnt i (NWay.addToCounts o lo hi F.countsDelta).1 (NWay.addToCounts o lo hi F.countsDelta).2,
            o.ln i F.lastBlock, o.ln i F.lastNode⟩ := by
        intro i
        rw [hblk i, hadd i, hlb i, hln i, absorbCalls]
        by_cases hle : (jobs[i]).input.length - k * s.padded a ≤ s.padded a
        · have hle' : ((jobs[i]).input.drop (k * s.padded a)).length ≤ s.padded a := by rw [List.length_drop]; exact hle
          rw [if_pos hle']
          simp only [hle, decide_true, Bool.and_true, Bool.true_and, List.length_drop, List.headD_cons]
        · have hle' : ¬ ((jobs[i]).input.drop (k * s.padded a)).length ≤ s.padded a := by rw [List.length_drop]; exact hle
          have hfull : (((jobs[i]).input.drop (k * s.padded a)).take a.bb).length = a.bb := by
            rw [List.length_take, List.length_drop]; omega
          have hmin : min a.bb ((jobs[i]).input.length - k * s.padded a) = a.bb := by omega
          rw [if_neg hle']
          simp only [hle, decide_false, Bool.and_false, Bool.false_and, List.headD_cons, hmin]
          rw [Spec.pad, hfull, Nat.sub_self, List.replicate_zero, List.append_nil]
      refine ⟨NWay.compressTransposed o h (o.transposeMsg F.blocks) (NWay.addToCounts o lo hi F.countsDelta).1
          (NWay.addToCounts o lo hi F.countsDelta).2 F.lastBlock F.lastNode, (NWay.addToCounts o lo hi F.countsDelta).1,
        (NWay.addToCounts o lo hi F.countsDelta).2, ?_, ?_⟩
      · refine (emit_bind (l := []) rfl).trans ?_
        unfold passes passes NWay.passOf
        congr 2
        apply List.map_congr_left
        intro i _
        rw [hhead i]; rfl
      · intro i
        constructor
        · intro hle
          have hle' : ((jobs[i]).input.drop (k * s.padded a)).length ≤ s.padded a := by rw [List.length_drop]; exact hle
          rw [absorbCalls, if_pos hle']; rfl
        · intro hle
          have hle' : ¬ ((jobs[i]).input.drop (k * s.padded a)).length ≤ s.padded a := by rw [List.length_drop]; exact hle
          have hmin : min a.bb ((jobs[i]).input.length - k * s.padded a) = a.bb := by omega
          conv => rhs; rw [absorbCalls, if_neg hle']
          rw [hadd i, hmin, List.drop_drop, Nat.add_mul k 1, Nat.one_mul]
          rfl
    · have hlt : k * s.padded a + s.padded a ≤ K * s.padded a := by
        rw [← Nat.succ_mul]; exact Nat.mul_le_mul_right _ (by omega)
      have hne : k * s.padded a ≠ F.offset := by rw [hoff]; omega
      have hlen : ∀ i : Fin N, K * s.padded a < (jobs[i]).input.length := fun i => by
        rcases hK i with h | h
        · omega
        · exact h
      have hblocks : (jobs.map (·.input)).mapM (fun input => rawRef input (k * s.padded a) a.bb) =
          .ok ((jobs.map (·.input)).map fun input => (input.drop (k * s.padded a)).take a.bb) := by
        apply vector_mapM_ok
        intro x hx
        obtain ⟨i, hi, rfl⟩ := Vector.getElem_of_mem hx
        apply rawRef_ok
        have := hlen ⟨i, hi⟩
        simp only [Vector.getElem_map, Fin.getElem_fin] at *
        omega
      have hadd' : addUsize m (k * s.padded a) (s.padded a) = .ok ((k + 1) * s.padded a) := by
        rw [addUsize, if_pos (by omega), Nat.add_mul, Nat.one_mul]
      simp only [if_neg hne]
      rw [lift_bind (x := ((jobs.map (·.input)).map fun input => (input.drop (k * s.padded a)).take a.bb,
        o.set1 (BitVec.ofNat a.w a.bb), o.set1 0, o.set1 0)) (by rw [hblocks]; rfl)]
      simp only
      have hd1 : ∀ i, o.ln i (o.set1 (BitVec.ofNat a.w a.bb)) = BitVec.ofNat a.w a.bb := fun i => L.set1 i _
      have hadd : ∀ i, o.cnt i (NWay.addToCounts o lo hi (o.set1 (BitVec.ofNat a.w a.bb))).1
            (NWay.addToCounts o lo hi (o.set1 (BitVec.ofNat a.w a.bb))).2 = o.cnt i lo hi + BitVec.ofNat _ a.bb :=
        fun i => addToCounts_lane L i lo hi _ _ (hd1 i) (Nat.le_refl _) (hcnt i)
      obtain ⟨h', lo', hi', heq, hprop⟩ := ih (k + 1) (by omega) (by omega)
        (NWay.compressTransposed o h (o.transposeMsg ((jobs.map (·.input)).map fun input => (input.drop (k * s.padded a)).take a.bb))
          (NWay.addToCounts o lo hi (o.set1 (BitVec.ofNat a.w a.bb))).1
          (NWay.addToCounts o lo hi (o.set1 (BitVec.ofNat a.w a.bb))).2 (o.set1 0) (o.set1 0))
        (NWay.addToCounts o lo hi (o.set1 (BitVec.ofNat a.w a.bb))).1
        (NWay.addToCounts o lo hi (o.set1 (BitVec.ofNat a.w a.bb))).2
        (fun i => by rw [hadd i]; exact count_add_mod _ (hcnt i))
      have hstep : ∀ i : Fin N, absorbCalls a s fin (jobs[i]).lastNode (o.cnt i lo hi)
          ((jobs[i]).input.drop (k * s.padded a)) =
          ⟨((jobs[i]).input.drop (k * s.padded a)).take a.bb, o.cnt i lo hi + BitVec.ofNat _ a.bb, 0, 0⟩ ::
            absorbCalls a s fin (jobs[i]).lastNode (o.cnt i (NWay.addToCounts o lo hi (o.set1 (BitVec.ofNat a.w a.bb))).1
              (NWay.addToCounts o lo hi (o.set1 (BitVec.ofNat a.w a.bb))).2)
              ((jobs[i]).input.drop ((k + 1) * s.padded a)) := by
        intro i
        have hnle : ¬ ((jobs[i]).input.drop (k * s.padded a)).length ≤ s.padded a := by
          rw [List.length_drop]; have := hlen i; omega
        conv => lhs; rw [absorbCalls, if_neg hnle]
        rw [hadd i, List.drop_drop, Nat.add_mul k 1, Nat.one_mul]
        rfl
      have hsub : K - k + 1 = (K - (k + 1) + 1) + 1 := by omega
      refine ⟨h', lo', hi', ?_, ?_⟩
      · rw [emit_bind (by
          rw [lift_bind hadd']
          exact heq), hsub, passes]
        simp only [hstep, List.headD_cons, List.tail_cons]
        congr 2
        unfold NWay.passOf
        apply List.map_congr_left
        intro i _
        congr 2
        · simp
        · exact hadd i
        · exact L.set1 i _
        · exact L.set1 i _
      · intro i
        rw [hstep i, hsub]
        refine ⟨fun hle => ?_, fun hle => ?_⟩
        · rw [List.length_cons, (hprop i).1 hle]
        · rw [List.drop_succ_cons]; exact (hprop i).2 hle

/-- **One call of an N-way loop, logged.** Every lane makes the same number of its calls, in order; a finished job has made
all of them. -/
theorem compressLoopT_spec {o : VImpl a N R} (L : LaneLaws o) (T : TransposeLaws o) (hN : 0 < N) (ids : Vector ι N)
    (s : Stride) (fin : Bool) (jobs : Vector (Job a) N) (hok : ∀ i : Fin N, (jobs[i]).Ok fin) :
    ∃ jobs' n, NWay.compressLoopT o ids jobs fin s = ret jobs' (passes ids n fun i => (jobs[i]).calls s fin) ∧
      (∀ i : Fin N, JobStep s fin jobs[i] jobs'[i]) ∧ (∃ i : Fin N, (jobs'[i]).input = []) ∧
      ∀ i : Fin N, ((jobs'[i]).input = [] → ((jobs[i]).calls s fin).length = n) ∧
        ((jobs'[i]).input ≠ [] → (jobs'[i]).calls s fin = ((jobs[i]).calls s fin).drop n) := by
  have hP := padded_pos a s
  have hbb := bb_le_padded a s
  suffices hmain : ∃ jobs' n, NWay.compressLoopT o ids jobs fin s = ret jobs' (passes ids n fun i => (jobs[i]).calls s fin) ∧
      ∀ i : Fin N, ((jobs'[i]).input = [] → ((jobs[i]).calls s fin).length = n) ∧
        ((jobs'[i]).input ≠ [] → (jobs'[i]).calls s fin = ((jobs[i]).calls s fin).drop n) by
    obtain ⟨jobs', n, h1, h2⟩ := hmain
    obtain ⟨jobs'', h3, h4, h5⟩ := compressLoop_spec L T hN s fin jobs hok
    have : jobs'' = jobs' := by
      have := compressLoopT_erase o ids jobs fin s
      rw [h1, h3, erase_ret] at this
      cases this; rfl
    subst this
    exact ⟨_, n, h1, h4, h5, h2⟩
  obtain ⟨m, hm, hmem, hmle⟩ := listMin_spec (jobs.toList.map fun job => job.input.length) (by
    intro h
    have := congrArg List.length h
    simp at this; omega)
  have hmin : ∀ i : Fin N, m ≤ (jobs[i]).input.length := fun i => hmle _ (by
    apply List.mem_map.2; exact ⟨jobs[i], by simp, rfl⟩)
  obtain ⟨K, hKdef⟩ : ∃ K, K = (m - 1) / s.padded a := ⟨_, rfl⟩
  have hspec := finOffset_spec (s.padded a) m hP
  rw [← hKdef] at hspec
  have hoffle : ∀ i : Fin N, K * s.padded a ≤ (jobs[i]).input.length := fun i => by have := hmin i; omega
  have hK : ∀ i : Fin N, K = 0 ∨ K * s.padded a < (jobs[i]).input.length := fun i => by
    by_cases h0 : K = 0
    · exact .inl h0
    · right
      have h1 := Nat.div_mul_le_self (m - 1) (s.padded a)
      rw [← hKdef] at h1
      have h2 : 0 < K * s.padded a := Nat.mul_pos (by omega) hP
      have := hmin i; omega
  unfold NWay.compressLoopT
  have hass : (jobs.toList.forM fun job => inputDebugAsserts a job.input fin) = .ok () := by
    apply list_forM_ok
    intro x hx
    obtain ⟨i, hi, rfl⟩ := Vector.getElem_of_mem (Vector.mem_toList_iff.1 hx)
    exact inputDebugAsserts_ok (hok ⟨i, hi⟩).input
  obtain ⟨fins, hfins0⟩ : ∃ fins : Vector (List Byte × Nat × Bool) N, fins = jobs.map fun job =>
      (Spec.pad a.bb ((job.input.drop (K * s.padded a)).take a.bb),
        min a.bb (job.input.length - K * s.padded a), decide (job.input.length - K * s.padded a ≤ s.padded a)) := ⟨_, rfl⟩
  have hfins : (jobs.mapM fun job => finalBlock a job.input (K * s.padded a) (List.replicate a.bb 0) s) = .ok fins := by
    rw [hfins0]
    apply vector_mapM_ok
    intro x hx
    obtain ⟨i, hi, rfl⟩ := Vector.getElem_of_mem hx
    exact finalBlock_eq a s _ _ (hoffle ⟨i, hi⟩)
  rw [lift_bind hass]
  simp only
  rw [lift_bind (x := m) (by rw [hm])]
  simp only [hspec.1]
  rw [lift_bind hfins]
  have hcnt0 : ∀ i : Fin N, o.cnt i (NWay.loadCounts o jobs).1 (NWay.loadCounts o jobs).2 = (jobs[i]).count := fun i => by
    simp only [VImpl.cnt, NWay.loadCounts, L.setN, Fin.getElem_fin, Vector.getElem_map, assemble_parts]
  obtain ⟨F, hF⟩ : ∃ F : NWay.Fin_ a N R, F = {
      offset := K * s.padded a
      blocks := fins.map (·.1)
      countsDelta := o.setN (fins.map fun f => BitVec.ofNat a.w f.2.1)
      lastBlock := (if fin then
          (NWay.flagsVec o (fins.map fun f => f.2.2),
           NWay.flagsVec o (Vector.ofFn fun i => fins[i].2.2 && jobs[i].lastNode))
        else (o.set1 0, o.set1 0)).1
      lastNode := (if fin then
          (NWay.flagsVec o (fins.map fun f => f.2.2),
           NWay.flagsVec o (Vector.ofFn fun i => fins[i].2.2 && jobs[i].lastNode))
        else (o.set1 0, o.set1 0)).2 } := ⟨_, rfl⟩
  obtain ⟨h', lo', hi', heq, hprop⟩ := loopIterT_eq L ids s fin jobs K m (by
      have := Nat.div_mul_le_self (m - 1) (s.padded a)
      rw [← hKdef] at this; omega) hK F (by rw [hF])
    (fun i => by simp [hF, hfins0])
    (fun i => by simp [hF, hfins0, L.setN])
    (fun i => by
      rw [hF]
      cases fin
      · simp only [Bool.false_eq_true, ↓reduceIte, Bool.false_and]; exact L.set1 i _
      · simp [NWay.flagsVec, L.setN, hfins0])
    (fun i => by
      rw [hF]
      cases fin
      · simp only [Bool.false_eq_true, ↓reduceIte, Bool.false_and]; exact L.set1 i _
      · simp [NWay.flagsVec, L.setN, hfins0])
    (m + 1) 0 (Nat.zero_le _) (by have := Nat.div_le_self (m - 1) (s.padded a); omega)
    (o.transposeState (jobs.map (·.words))) (NWay.loadCounts o jobs).1 (NWay.loadCounts o jobs).2
    (fun i => by rw [hcnt0 i]; exact (hok i).count)
  rw [Nat.zero_mul] at heq
  have hres : ((Vector.finRange N).mapM fun i => do
      let consumed := min (K * s.padded a + s.padded a) jobs[i].input.length
      let input ← sliceFrom jobs[i].input consumed
      (.ok { input := input, words := (o.untransposeState h')[i], count := (NWay.storeCounts o lo' hi')[i],
             lastNode := jobs[i].lastNode } : Res (Job a))) =
      .ok ((Vector.finRange N).map fun i =>
        { input := jobs[i].input.drop (min (K * s.padded a + s.padded a) jobs[i].input.length),
          words := (o.untransposeState h')[i], count := (NWay.storeCounts o lo' hi')[i], lastNode := jobs[i].lastNode }) := by
    apply vector_mapM_ok
    intro i _
    simp only [sliceFrom, if_pos (Nat.min_le_right _ _), bind, Except.bind]
  simp only [hcnt0, List.drop_zero] at heq hprop
  refine ⟨(Vector.finRange N).map fun i =>
        { input := jobs[i].input.drop (min (K * s.padded a + s.padded a) jobs[i].input.length),
          words := (o.untransposeState h')[i], count := (NWay.storeCounts o lo' hi')[i], lastNode := jobs[i].lastNode },
    K + 1, (bind_ret (x := (K * s.padded a, h', lo', hi')) (by subst hF; exact heq) (lift_ok hres)).trans ?_, ?_⟩
  · simp only [List.append_nil, Nat.sub_zero]; rfl
  · intro i
    simp only [Fin.getElem_fin, Vector.getElem_map, Vector.getElem_finRange]
    have hp := hprop i
    simp only [Fin.getElem_fin, Nat.zero_mul, List.drop_zero, Nat.sub_zero] at hp
    have hcnt' : (NWay.storeCounts o lo' hi')[i.1] = o.cnt i lo' hi' := by
      simp [NWay.storeCounts, VImpl.cnt, VImpl.ln]
    have hsucc : (K + 1) * s.padded a = K * s.padded a + s.padded a := by rw [Nat.add_mul, Nat.one_mul]
    constructor
    · intro he
      have he' : (jobs[i.1]).input.length - K * s.padded a ≤ s.padded a := by
        have := congrArg List.length he
        simp only [List.length_drop, List.length_nil] at this
        omega
      exact hp.1 he'
    · intro hne
      have hne' : ¬ (jobs[i.1]).input.length - K * s.padded a ≤ s.padded a := by
        intro hle
        apply hne
        apply List.eq_nil_of_length_eq_zero
        simp only [List.length_drop]
        omega
      have hmn : min (K * s.padded a + s.padded a) (jobs[i.1]).input.length = K * s.padded a + s.padded a := by omega
      have := hp.2 hne'
      rw [hsucc] at this
      simp only [Job.calls, hmn, hcnt']
      exact this

end

theorem solo_sched {a : Alg} {ι : Type} (i : ι) (cs : List (Call a)) : solo i cs = Sched.solo i cs := rfl

theorem passes_lockstep {a : Alg} {N : Nat} {ι : Type} (ids : Vector ι N) (n : Nat) (cs : Fin N → List (Call a))
    (h : ∀ i, n ≤ (cs i).length) :
    passes ids n cs = Sched.lockstep n ((List.finRange N).map fun i => (ids[i], cs i)) := by
  induction n generalizing cs with
  | zero => rfl
  | succ n ih =>
    rw [passes, Sched.lockstep, ih _ (fun i => by rw [List.length_tail]; have := h i; omega), List.map_map]
    congr 1
    rw [List.filterMap_map, ← List.filterMap_eq_map]
    congr 1
    funext i
    have := h i
    simp only [Function.comp]
    cases hc : cs i with
    | nil => rw [hc] at this; simp at this
    | cons c l => rfl

theorem shortest_eq {ι C : Type} {v : List (ι × List C)} {n : Nat} (h1 : ∃ p ∈ v, p.2.length = n)
    (h2 : ∀ p ∈ v, n ≤ p.2.length) : Sched.shortest v = n := by
  obtain ⟨p, hp, he⟩ := h1
  have hle : Sched.shortest v ≤ n := he ▸ Sched.shortest_le hp
  have : (v.map fun p => p.2.length).min? = some n := by
    rw [List.min?_eq_some_iff]
    exact ⟨List.mem_map.2 ⟨p, hp, he⟩, fun b hb => by
      obtain ⟨q, hq, rfl⟩ := List.mem_map.1 hb; exact h2 q hq⟩
  simp [Sched.shortest, this]

namespace Many
variable {a : Alg} {ι E : Type} [DecidableEq ι]

/-- The calls a job in the vector still has to make. -/
def refCalls (s : Stride) (fin : Bool) (r : JobRef a ι) : List (Call a) := absorbCalls a s fin r.lastNode r.count r.input

/-- The vector, as the abstract scheduler sees it. -/
def absVec (s : Stride) (fin : Bool) (vec : List (JobRef a ι)) : List (ι × List (Call a)) :=
  vec.map fun r => (r.id, refCalls s fin r)

/-- What must be known about visiting an element: that it is as in `PullOk`, and what it logs. -/
structure PullOkT (src : SourceT a ι E) (s : Stride) (fin : Bool) (i : ι) (e0 ef : E)
    (pc : List (Call a) × Option (List (Call a))) : Prop where
  ok : PullOk src.erase s fin i e0 ef
  log : ∃ e job, src.pull i e0 = ret (e, job) (Sched.solo i pc.1) ∧ pc.2 = job.map (refCalls s fin) ∧
    ∀ j, job = some j → j.id = i

theorem PullOkT.step {src : SourceT a ι E} (L : SrcLaws src.erase) {s : Stride} {fin : Bool} {mem0 final mem : ι → E}
    {i : ι} {queue : List ι} {vec : List (JobRef a ι)} {pull : Sched.Pull ι (Call a)}
    (hpull : PullOkT src s fin i (mem0 i) (final i) (pull i)) (h : Inv src.erase s fin mem0 final mem (i :: queue) vec) :
    ∃ e job, src.pull i (mem i) = ret (e, job) (Sched.solo i (pull i).1) ∧ (pull i).2 = job.map (refCalls s fin) ∧
      (∀ j, job = some j → j.id = i) ∧
      match job with
      | none => Inv src.erase s fin mem0 final (store mem i e) queue vec
      | some j => Inv src.erase s fin mem0 final (store mem i e) queue (vec ++ [j]) := by
  obtain ⟨e, job, h1, h2, h3⟩ := hpull.log
  obtain ⟨e', job', h4, h5⟩ := pull_inv L hpull.ok h
  have hm : mem i = mem0 i := h.queued i (by simp)
  have he : (e', job') = (e, job) := by
    have h6 : (src.pull i (mem i)).erase = .ok (e', job') := h4
    rw [hm, h1, erase_ret] at h6
    cases h6; rfl
  cases he
  exact ⟨e, job, by rw [hm]; exact h1, h2, h3, h5⟩

theorem fillJobsVecT_log {src : SourceT a ι E} (L : SrcLaws src.erase) {s : Stride} {fin : Bool} {mem0 final : ι → E}
    (pull : Sched.Pull ι (Call a)) (T : Nat) (hT : T ≤ maxDegree a) (queue : List ι) (mem : ι → E) (vec : List (JobRef a ι))
    (hpull : ∀ i ∈ queue, PullOkT src s fin i (mem0 i) (final i) (pull i))
    (h : Inv src.erase s fin mem0 final mem queue vec) :
    ∃ mem' queue' vec', fillJobsVecT src T mem queue vec =
        ret (mem', queue', vec') (Sched.fill pull T queue (absVec s fin vec)).1 ∧
      (Sched.fill pull T queue (absVec s fin vec)).2 = (queue', absVec s fin vec') ∧
      Inv src.erase s fin mem0 final mem' queue' vec' ∧ (∀ i ∈ queue', i ∈ queue) ∧
      queue'.length + vec'.length ≤ queue.length + vec.length := by
  induction queue generalizing mem vec with
  | nil => exact ⟨mem, [], vec, rfl, rfl, h, by simp, Nat.le_refl _⟩
  | cons i queue ih =>
    rw [fillJobsVecT, Sched.fill]
    have hlen : (absVec s fin vec).length = vec.length := by simp [absVec]
    rw [hlen]
    by_cases hlt : vec.length < T
    · rw [if_pos hlt, if_pos hlt]
      obtain ⟨e, job, hp, hpc, hid, hi⟩ := (hpull i (by simp)).step L h
      cases job with
      | none =>
        obtain ⟨m, q, v, h1, h2, h3, h4, h5⟩ := ih _ _ (fun j hj => hpull j (by simp [hj])) hi
        simp only [hpc, Option.map_none]
        refine ⟨m, q, v, bind_ret hp h1, h2, h3, fun j hj => by simp [h4 j hj], by simp; omega⟩
      | some j =>
        have hpush : push vec j = .ok (vec ++ [j]) := by rw [push, if_pos (by omega)]
        obtain ⟨m, q, v, h1, h2, h3, h4, h5⟩ := ih _ _ (fun j hj => hpull j (by simp [hj])) hi
        have habs : absVec s fin (vec ++ [j]) = absVec s fin vec ++ [(i, refCalls s fin j)] := by
          simp [absVec, hid j rfl]
        rw [habs] at h1 h2
        simp only [hpc, Option.map_some]
        refine ⟨m, q, v, bind_ret hp (by simp only; rw [lift_bind hpush]; exact h1), h2, h3, fun j hj => by simp [h4 j hj], ?_⟩
        simp at h5 ⊢; omega
    · rw [if_neg hlt, if_neg hlt]
      exact ⟨mem, i :: queue, vec, rfl, rfl, h, by simp, Nat.le_refl _⟩

/-- What is known of an N-way loop: `compressLoopT_spec`. -/
def LoopOkT (s : Stride) (fin : Bool) (N : Nat) (loopT : Vector ι N → Vector (Job a) N → Traced a ι (Vector (Job a) N)) : Prop :=
  ∀ (ids : Vector ι N) (jobs : Vector (Job a) N), (∀ i : Fin N, (jobs[i]).Ok fin) →
    ∃ jobs' n, loopT ids jobs = ret jobs' (passes ids n fun i => (jobs[i]).calls s fin) ∧
      (∀ i : Fin N, JobStep s fin jobs[i] jobs'[i]) ∧ (∃ i : Fin N, (jobs'[i]).input = []) ∧
      ∀ i : Fin N, ((jobs'[i]).input = [] → ((jobs[i]).calls s fin).length = n) ∧
        ((jobs'[i]).input ≠ [] → (jobs'[i]).calls s fin = ((jobs[i]).calls s fin).drop n)

omit [DecidableEq ι] in
theorem LoopOkT.ok {s : Stride} {fin : Bool} {N : Nat} {loopT : Vector ι N → Vector (Job a) N → Traced a ι (Vector (Job a) N)}
    {loopN : Vector (Job a) N → Res (Vector (Job a) N)} (hl : ∀ ids jobs, (loopT ids jobs).erase = loopN jobs)
    (h : LoopOkT s fin N loopT) (ids : Vector ι N) : LoopOk s fin N loopN := by
  intro jobs hok
  obtain ⟨jobs', n, h1, h2, h3, _⟩ := h ids jobs hok
  refine ⟨jobs', ?_, h2, h3⟩
  rw [← hl ids jobs, h1, erase_ret]

theorem runWideT_log {src : SourceT a ι E} (L : SrcLaws src.erase) {s : Stride} {fin : Bool} {mem0 final : ι → E}
    {N : Nat} {loopT : Vector ι N → Vector (Job a) N → Traced a ι (Vector (Job a) N)}
    {loopN : Vector (Job a) N → Res (Vector (Job a) N)} (hl : ∀ ids jobs, (loopT ids jobs).erase = loopN jobs)
    (hloop : LoopOkT s fin N loopT)
    (queue : List ι) (mem : ι → E) (vec : List (JobRef a ι)) (hvec : N ≤ vec.length)
    (h : Inv src.erase s fin mem0 final mem queue vec) :
    ∃ mem' vec₁ vec₂, runWideT src N loopT mem vec = ret (mem', vec₁) (Sched.wide N (absVec s fin vec)).1 ∧
      evictFinished vec₁ N = .ok vec₂ ∧ absVec s fin vec₂ = (Sched.wide N (absVec s fin vec)).2 ∧
      Inv src.erase s fin mem0 final mem' queue vec₂ ∧ vec₂.length < vec.length := by
  have hlen : (vec.take N).length = N := by rw [List.length_take]; omega
  obtain ⟨ids, hids⟩ : ∃ ids : Vector ι N, ids = ⟨((vec.take N).map (·.id)).toArray, by simpa using hlen⟩ := ⟨_, rfl⟩
  obtain ⟨jobs, hjobs⟩ : ∃ jobs : Vector (Job a) N,
      jobs = ⟨((vec.take N).map (deref src.erase mem)).toArray, by simpa using hlen⟩ := ⟨_, rfl⟩
  have hget : ∀ i : Fin N, jobs[i] = deref src.erase mem (vec[i.1]'(by omega)) := fun i => by rw [hjobs]; simp
  have hgid : ∀ i : Fin N, ids[i] = (vec[i.1]'(by omega)).id := fun i => by rw [hids]; simp
  obtain ⟨mem', vec₁, vec₂, hw1, hw2, hw3, hw4⟩ := wide_inv L (hloop.ok hl ids) queue mem vec hvec h
  obtain ⟨jobs', n, hrun, hstep, ⟨i0, hi0⟩, hcalls⟩ := hloop ids jobs (fun i => by
    rw [hget i]; exact (h.pend _ (List.getElem_mem _)).1)
  have hrunW : runWideT src N loopT mem vec =
      ret ((writeBack src.erase mem ((vec.take N).zip jobs'.toList)).1,
        (writeBack src.erase mem ((vec.take N).zip jobs'.toList)).2 ++ vec.drop N)
        (passes ids n fun i => (jobs[i]).calls s fin) := by
    unfold runWideT
    rw [dif_pos hlen, ← hids, ← hjobs]
    simp only
    rw [bind_ret hrun (l' := []) rfl, List.append_nil]
  have hval : (mem', vec₁) = ((writeBack src.erase mem ((vec.take N).zip jobs'.toList)).1,
        (writeBack src.erase mem ((vec.take N).zip jobs'.toList)).2 ++ vec.drop N) := by
    have := runWideT_erase src N loopT loopN hl mem vec
    rw [hrunW, hw1, erase_ret] at this
    cases this; rfl
  have habs : (absVec s fin vec).take N = (List.finRange N).map fun i => (ids[i], (jobs[i]).calls s fin) := by
    apply List.ext_getElem
    · simp [absVec]; omega
    · intro k h1 h2
      have hk : k < N := by simpa using h2
      have hg := hget ⟨k, hk⟩
      have hg' := hgid ⟨k, hk⟩
      simp only [Fin.getElem_fin] at hg hg'
      simp only [absVec, List.getElem_take, List.getElem_map, List.getElem_finRange, Fin.getElem_fin, Fin.val_cast, hg, hg']
      rfl
  have hle : ∀ i : Fin N, n ≤ ((jobs[i]).calls s fin).length := by
    intro i
    by_cases he : (jobs'[i]).input = []
    · rw [(hcalls i).1 he]; exact Nat.le_refl _
    · have h1 := (hcalls i).2 he
      have h2 : (jobs'[i]).calls s fin ≠ [] := absorbCalls_ne_nil s fin _ _ _
      rw [h1] at h2
      have := List.length_pos_iff.2 h2
      rw [List.length_drop] at this
      omega
  have hshort : Sched.shortest ((absVec s fin vec).take N) = n := by
    rw [habs]
    apply shortest_eq
    · exact ⟨_, List.mem_map.2 ⟨i0, List.mem_finRange _, rfl⟩, (hcalls i0).1 hi0⟩
    · intro p hp
      obtain ⟨i, _, rfl⟩ := List.mem_map.1 hp
      exact hle i
  have hnd := h.nodup
  rw [List.nodup_append] at hnd
  have hzid : ((vec.take N).zip jobs'.toList).map (·.1.id) = (vec.take N).map (·.id) := by
    have : ((vec.take N).zip jobs'.toList).map (·.1) = vec.take N := by
      rw [List.map_fst_zip]; simp [hlen]
    conv => rhs; rw [← this, List.map_map]
    rfl
  obtain ⟨hrefs, _, _⟩ := writeBack_spec src.erase ((vec.take N).zip jobs'.toList) mem (by
    rw [hzid]; exact ((List.take_sublist N vec).map _).nodup hnd.2.1)
  have hrefs' : (writeBack src.erase mem ((vec.take N).zip jobs'.toList)).2 =
      (List.finRange N).map fun i => { id := ids[i], input := (jobs'[i]).input, count := (jobs'[i]).count,
                                       lastNode := (jobs'[i]).lastNode } := by
    rw [hrefs]
    apply List.ext_getElem
    · simp; omega
    · intro k h1 h2
      have hk : k < N := by simpa using h2
      have hg' := hgid ⟨k, hk⟩
      simp only [Fin.getElem_fin] at hg'
      simp [hg']
  have hwide : Sched.wide N (absVec s fin vec) =
      (Sched.lockstep n ((List.finRange N).map fun i => (ids[i], (jobs[i]).calls s fin)),
       (((List.finRange N).map fun i => (ids[i], (jobs[i]).calls s fin)).map fun p => (p.1, p.2.drop n)).filter
         (fun p => !p.2.isEmpty) ++ (absVec s fin vec).drop N) := by
    unfold Sched.wide
    rw [hshort, habs]
  refine ⟨mem', vec₁, vec₂, ?_, hw2, ?_, hw3, hw4⟩
  · rw [hval, hrunW, passes_lockstep ids n _ hle, hwide]
  · have hv1 : vec₁ = (writeBack src.erase mem ((vec.take N).zip jobs'.toList)).2 ++ vec.drop N := by
      have := congrArg Prod.snd hval; exact this
    have hev := evictFinished_eq (writeBack src.erase mem ((vec.take N).zip jobs'.toList)).2 (vec.drop N)
    have hl2 : (writeBack src.erase mem ((vec.take N).zip jobs'.toList)).2.length = N := by rw [hrefs']; simp
    rw [hl2, ← hv1, hw2] at hev
    cases hev
    rw [hwide]
    simp only [absVec, List.map_append, List.map_drop]
    congr 1
    rw [hrefs', List.map_map, List.filter_map, List.filter_map, List.map_map]
    have hcongr : ∀ i : Fin N, (jobs'[i]).input.isEmpty = (((jobs[i]).calls s fin).drop n).isEmpty := by
      intro i
      by_cases he : (jobs'[i]).input = []
      · rw [he, ← (hcalls i).1 he]; simp
      · have h2 : (jobs'[i]).calls s fin ≠ [] := absorbCalls_ne_nil s fin _ _ _
        rw [(hcalls i).2 he] at h2
        rw [Bool.eq_iff_iff, List.isEmpty_iff, List.isEmpty_iff]
        exact ⟨fun h => absurd h he, fun h => absurd h h2⟩
    rw [List.filter_congr (q := (fun p : ι × List (Call a) => !p.2.isEmpty) ∘
      ((fun p : ι × List (Call a) => (p.1, p.2.drop n)) ∘ fun i : Fin N => (ids[i], (jobs[i]).calls s fin)))]
    · apply List.map_congr_left
      intro i hi
      have hne : ¬ (jobs'[i]).input = [] := by
        have h2 := (List.mem_filter.1 hi).2
        simp only [Function.comp, ← hcongr i] at h2
        simpa using h2
      simp only [Function.comp]
      rw [← (hcalls i).2 hne]
      rfl
    · intro i _
      simp only [Function.comp, hcongr i]

theorem levelIterT_log {src : SourceT a ι E} (L : SrcLaws src.erase) {s : Stride} {fin : Bool} {mem0 final : ι → E}
    (pull : Sched.Pull ι (Call a)) {N : Nat} (hN : N ≤ maxDegree a)
    {loopT : Vector ι N → Vector (Job a) N → Traced a ι (Vector (Job a) N)}
    {loopN : Vector (Job a) N → Res (Vector (Job a) N)} (hl : ∀ ids jobs, (loopT ids jobs).erase = loopN jobs)
    (hloop : LoopOkT s fin N loopT) (fuel : Nat) (queue : List ι) (mem : ι → E) (vec : List (JobRef a ι))
    (hpull : ∀ i ∈ queue, PullOkT src s fin i (mem0 i) (final i) (pull i)) (hf : queue.length + vec.length < fuel)
    (h : Inv src.erase s fin mem0 final mem queue vec) :
    ∃ mem' queue' vec', levelIterT src N loopT fuel mem queue vec =
        ret (mem', queue', vec') (Sched.levelIter pull N fuel queue (absVec s fin vec)).1 ∧
      (Sched.levelIter pull N fuel queue (absVec s fin vec)).2 = (queue', absVec s fin vec') ∧
      Inv src.erase s fin mem0 final mem' queue' vec' ∧ (∀ i ∈ queue', i ∈ queue) := by
  induction fuel generalizing queue mem vec with
  | zero => omega
  | succ fuel ih =>
    rw [levelIterT, Sched.levelIter]
    obtain ⟨m1, q1, v1, h1, h2, h3, h4, h5⟩ := fillJobsVecT_log L pull N hN queue mem vec hpull h
    simp only [h2]
    have hlen : (absVec s fin v1).length = v1.length := by simp [absVec]
    rw [hlen]
    by_cases hlt : v1.length < N
    · rw [if_pos hlt]
      refine ⟨m1, q1, v1, ?_, h2, h3, h4⟩
      rw [bind_ret h1 (y := (m1, q1, v1)) (l' := []) (by simp only [if_pos hlt]; rfl), List.append_nil]
    · rw [if_neg hlt]
      obtain ⟨m2, v2, v3, h6, h7, h8, h9, h10⟩ := runWideT_log L hl hloop q1 m1 v1 (by omega) h3
      obtain ⟨m4, q4, v4, h11, h12, h13, h14⟩ := ih q1 m2 v3 (fun i hi => hpull i (h4 i hi)) (by omega) h9
      rw [h8] at h11 h12
      refine ⟨m4, q4, v4, bind_ret h1 ?_, h12, h13, fun i hi => h4 i (h14 i hi)⟩
      simp only [if_neg hlt]
      refine bind_ret h6 ?_
      simp only
      rw [lift_bind h7]
      exact h11

theorem levelT_log {src : SourceT a ι E} (L : SrcLaws src.erase) {s : Stride} {fin : Bool} {mem0 final : ι → E}
    (pull : Sched.Pull ι (Call a)) {N degree : Nat} (hN : N ≤ maxDegree a)
    {loopT : Vector ι N → Vector (Job a) N → Traced a ι (Vector (Job a) N)}
    {loopN : Vector (Job a) N → Res (Vector (Job a) N)} (hl : ∀ ids jobs, (loopT ids jobs).erase = loopN jobs)
    (hloop : N ≤ degree → LoopOkT s fin N loopT) (queue : List ι) (mem : ι → E) (vec : List (JobRef a ι))
    (hpull : ∀ i ∈ queue, PullOkT src s fin i (mem0 i) (final i) (pull i))
    (h : Inv src.erase s fin mem0 final mem queue vec) :
    ∃ mem' queue' vec', levelT src degree N loopT mem queue vec =
        ret (mem', queue', vec') (Sched.level pull degree N queue (absVec s fin vec)).1 ∧
      (Sched.level pull degree N queue (absVec s fin vec)).2 = (queue', absVec s fin vec') ∧
      Inv src.erase s fin mem0 final mem' queue' vec' ∧ (∀ i ∈ queue', i ∈ queue) := by
  unfold levelT Sched.level
  have hlen : (absVec s fin vec).length = vec.length := by simp [absVec]
  by_cases hd : degree ≥ N
  · rw [if_pos hd, if_pos hd, hlen]
    exact levelIterT_log L pull hN hl (hloop hd) _ queue mem vec hpull (by omega) h
  · rw [if_neg hd, if_neg hd]
    exact ⟨mem, queue, vec, rfl, rfl, h, fun _ hi => hi⟩

theorem runOneT_log {src : SourceT a ι E} {s : Stride} {fin : Bool} {mem0 final : ι → E} (imp : Platform)
    (queue : List ι) (mem : ι → E) (r : JobRef a ι) (vec : List (JobRef a ι))
    (h : Inv src.erase s fin mem0 final mem queue (r :: vec)) :
    ∃ mem', runOneT src imp fin s mem r = ret mem' (Sched.solo r.id (refCalls s fin r)) ∧
      Inv src.erase s fin mem0 final mem' queue vec := by
  obtain ⟨mem', h1, h2⟩ := runOne_inv imp queue mem r vec h
  have hp := h.pend r (by simp)
  have hlog : runOneT src imp fin s mem r = ret (store mem r.id (src.setWords (mem r.id)
      (absorb a s fin r.lastNode (src.getWords (mem r.id)) r.count r.input))) (Sched.solo r.id (refCalls s fin r)) := by
    unfold runOneT
    rw [bind_ret (compress1T_eq r.id imp r.input _ _ _ _ _ hp.1.input) (l' := []) rfl, List.append_nil]
    rfl
  have := runOneT_erase src imp fin s mem r
  rw [hlog, h1, erase_ret] at this
  cases this
  exact ⟨_, hlog, h2⟩

theorem runVecT_log {src : SourceT a ι E} {s : Stride} {fin : Bool} {mem0 final : ι → E} (imp : Platform)
    (queue : List ι) (mem : ι → E) (vec : List (JobRef a ι)) (h : Inv src.erase s fin mem0 final mem queue vec) :
    ∃ mem', runVecT src imp fin s mem vec = ret mem' (Sched.runVec (absVec s fin vec)) ∧
      Inv src.erase s fin mem0 final mem' queue [] := by
  induction vec generalizing mem with
  | nil => exact ⟨mem, rfl, h⟩
  | cons r vec ih =>
    obtain ⟨m1, h1, h2⟩ := runOneT_log imp queue mem r vec h
    obtain ⟨m2, h3, h4⟩ := ih m1 h2
    refine ⟨m2, ?_, h4⟩
    rw [runVecT]
    exact bind_ret h1 h3

theorem runQueueT_log {src : SourceT a ι E} (L : SrcLaws src.erase) {s : Stride} {fin : Bool} {mem0 final : ι → E}
    (pull : Sched.Pull ι (Call a)) (imp : Platform) (queue : List ι) (mem : ι → E)
    (hpull : ∀ i ∈ queue, PullOkT src s fin i (mem0 i) (final i) (pull i))
    (h : Inv src.erase s fin mem0 final mem queue []) :
    ∃ mem', runQueueT src imp fin s mem queue = ret mem' (Sched.runQueue pull queue) ∧
      Inv src.erase s fin mem0 final mem' [] [] := by
  induction queue generalizing mem with
  | nil => exact ⟨mem, rfl, h⟩
  | cons i queue ih =>
    obtain ⟨e, job, hp, hpc, hid, hi⟩ := (hpull i (by simp)).step L h
    rw [runQueueT]
    have hrq : Sched.runQueue pull (i :: queue) =
      Sched.solo i (pull i).1 ++ (Sched.solo i ((pull i).2.getD []) ++ Sched.runQueue pull queue) := by
      simp [Sched.runQueue]
    rw [hrq]
    cases job with
    | none =>
      obtain ⟨m, h1, h2⟩ := ih _ (fun j hj => hpull j (by simp [hj])) hi
      rw [hpc]
      exact ⟨m, bind_ret hp h1, h2⟩
    | some j =>
      obtain ⟨m1, h1, h2⟩ := runOneT_log imp queue _ j [] hi
      obtain ⟨m2, h3, h4⟩ := ih _ (fun j hj => hpull j (by simp [hj])) h2
      rw [hpc]
      rw [hid j rfl] at h1
      exact ⟨m2, bind_ret hp (bind_ret h1 h3), h4⟩

end Many

open Many

theorem compressHiT_ok {ι : Type} (a : Alg) (imp : Platform) (s : Stride) (fin : Bool) (h : hiDegree a ≤ implDegree a imp) :
    LoopOkT (ι := ι) s fin (hiDegree a) (fun ids jobs => compressHiT a imp ids jobs fin s) := by
  cases a <;> cases imp <;> try (exact absurd h (by decide))
  · exact fun ids jobs hok => compressLoopT_spec BAvx2.laws BAvx2.tlaws (by decide) ids s fin jobs hok
  · exact fun ids jobs hok => compressLoopT_spec SAvx2.laws SAvx2.tlaws (by decide) ids s fin jobs hok

theorem compressLoT_ok {ι : Type} (a : Alg) (imp : Platform) (s : Stride) (fin : Bool) (h : loDegree a ≤ implDegree a imp) :
    LoopOkT (ι := ι) s fin (loDegree a) (fun ids jobs => compressLoT a imp ids jobs fin s) := by
  cases a <;> cases imp <;> try (exact absurd h (by decide))
  · exact fun ids jobs hok => compressLoopT_spec BSse41.laws BSse41.tlaws (by decide) ids s fin jobs hok
  · exact fun ids jobs hok => compressLoopT_spec BSse41.laws BSse41.tlaws (by decide) ids s fin jobs hok
  · exact fun ids jobs hok => compressLoopT_spec SSse41.laws SSse41.tlaws (by decide) ids s fin jobs hok
  · exact fun ids jobs hok => compressLoopT_spec SSse41.laws SSse41.tlaws (by decide) ids s fin jobs hok

/-- **The log of the batch scheduler** is the abstract schedule of the calls of its jobs. -/
theorem compressManyT_eq {a : Alg} {ι E : Type} [DecidableEq ι] {src : SourceT a ι E} (L : SrcLaws src.erase)
    (imp : Platform) (fin : Bool) (s : Stride) (mem0 final : ι → E) (pull : Sched.Pull ι (Call a)) (queue : List ι)
    (hnd : queue.Nodup) (hpull : ∀ i ∈ queue, PullOkT src s fin i (mem0 i) (final i) (pull i))
    (hrest : ∀ i, i ∉ queue → mem0 i = final i) :
    compressManyT src imp fin s mem0 queue =
      ret final (Sched.run pull (implDegree a imp) (hiDegree a) (loDegree a) queue) := by
  have h0 : Inv src.erase s fin mem0 final mem0 queue [] :=
    ⟨by simpa using hnd, fun _ _ => rfl, by simp, fun i hi _ => hrest i hi⟩
  have hhi : hiDegree a ≤ maxDegree a := by cases a <;> decide
  have hlo : loDegree a ≤ maxDegree a := by cases a <;> decide
  obtain ⟨m1, q1, v1, h1, h2, h3, h4⟩ := levelT_log L pull hhi (fun ids jobs => compressHiT_erase imp ids jobs fin s)
    (fun h => compressHiT_ok a imp s fin h) queue mem0 [] hpull h0
  obtain ⟨m2, q2, v2, h5, h6, h7, h8⟩ := levelT_log L pull hlo (fun ids jobs => compressLoT_erase imp ids jobs fin s)
    (fun h => compressLoT_ok a imp s fin h) q1 m1 v1 (fun i hi => hpull i (h4 i hi)) h3
  obtain ⟨m3, h9, h10⟩ := runVecT_log imp q2 m2 v2 h7
  obtain ⟨m4, h11, h12⟩ := runQueueT_log L pull imp q2 m3 (fun i hi => hpull i (h4 i (h8 i hi))) h10
  have hm : m4 = final := funext fun i => h12.rest i (by simp) (by simp)
  subst hm
  have habs : absVec s fin ([] : List (JobRef a ι)) = [] := rfl
  rw [habs] at h1 h2
  unfold compressManyT Sched.run
  simp only [h2, h6]
  exact bind_ret h1 (bind_ret h5 (bind_ret h9 h11))

end Blake2
