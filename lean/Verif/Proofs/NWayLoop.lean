import Verif.Proofs.Counts
/-! # What an N-way loop computes for each of its jobs -/
namespace Blake2

variable {a : Alg} {N : Nat} {R : Type}

theorem list_mapM_ok {α β : Type} (f : α → Res β) (g : α → β) (l : List α) (h : ∀ x ∈ l, f x = .ok (g x)) :
    l.mapM f = .ok (l.map g) := by
  induction l with
  | nil => rfl
  | cons x xs ih =>
    rw [List.mapM_cons, h x (by simp), ih (fun y hy => h y (by simp [hy]))]
    rfl

theorem vector_mapM_ok {α β : Type} {n : Nat} (f : α → Res β) (g : α → β) (v : Vector α n)
    (h : ∀ x ∈ v, f x = .ok (g x)) : v.mapM f = .ok (v.map g) := by
  have h1 : Vector.toArray <$> v.mapM f = v.toArray.mapM f := Vector.toArray_mapM
  rw [Array.mapM_eq_mapM_toList, list_mapM_ok f g v.toArray.toList (fun x hx => h x (by
    rw [← Vector.mem_toArray_iff]; simpa using hx))] at h1
  cases hv : v.mapM f with
  | error e => rw [hv] at h1; cases h1
  | ok w =>
    rw [hv] at h1
    have h2 : w.toArray = (v.toArray.toList.map g).toArray := by
      simpa [Functor.map, Except.map] using h1
    congr 1
    apply Vector.toArray_inj.1
    rw [h2]; apply Array.toList_inj.1; simp

theorem list_forM_ok {α : Type} (f : α → Res Unit) (l : List α) (h : ∀ x ∈ l, f x = .ok ()) :
    l.forM f = .ok () := by
  induction l with
  | nil => rfl
  | cons x xs ih =>
    have := ih (fun y hy => h y (by simp [hy]))
    unfold List.forM
    rw [h x (by simp)]
    exact this

theorem listMin_spec (l : List Nat) (h : l ≠ []) :
    ∃ m, NWay.listMin l = some m ∧ m ∈ l ∧ ∀ x ∈ l, m ≤ x := by
  induction l with
  | nil => exact absurd rfl h
  | cons x xs ih =>
    by_cases hx : xs = []
    · subst hx; exact ⟨x, rfl, by simp, by simp⟩
    · obtain ⟨m, hm, hmem, hle⟩ := ih hx
      refine ⟨min x m, by simp [NWay.listMin, hm], ?_, ?_⟩
      · rcases Nat.le_total x m with h | h
        · simp [Nat.min_eq_left h]
        · rw [Nat.min_eq_right h]; simp [hmem]
      · intro y hy
        rcases List.mem_cons.1 hy with rfl | hy
        · exact Nat.min_le_left _ _
        · exact Nat.le_trans (Nat.min_le_right _ _) (hle y hy)

/-- The chaining words a job ends up with. -/
def Job.target (s : Stride) (fin : Bool) (j : Job a) : Vector (Word a) 8 :=
  absorb a s fin j.lastNode j.words j.count j.input

/-- The jobs an N-way loop may be given. -/
structure Job.Ok (fin : Bool) (j : Job a) : Prop where
  input : InputOk a fin j.input
  count : j.count.toNat % a.bb = 0

/-- How a call of an N-way loop may change a job. -/
structure JobStep (s : Stride) (fin : Bool) (j j' : Job a) : Prop where
  lastNode : j'.lastNode = j.lastNode
  done : j'.input = [] → j'.words = j.target s fin
  more : j'.input ≠ [] → j'.target s fin = j.target s fin ∧ j'.Ok fin ∧ j'.input.length < j.input.length

/-- The lane `i` byte counter. -/
def VImpl.cnt (o : VImpl a N R) (i : Fin N) (lo hi : R) : Count a := assembleCount a (o.ln i lo) (o.ln i hi)

/-- Lane `i` of one compression inside the loop. -/
theorem lane_compress {o : VImpl a N R} (L : LaneLaws o) (T : TransposeLaws o) (i : Fin N) (h : Vector R 8)
    (blocks : Vector (List Byte) N) (lo hi delta f f1 : R) (d : Nat) (b b1 : Bool)
    (hd : o.ln i delta = BitVec.ofNat a.w d) (hdb : d ≤ a.bb) (hc : (o.cnt i lo hi).toNat % a.bb = 0)
    (hf : o.ln i f = flagWord a b) (hf1 : o.ln i f1 = flagWord a b1) :
    (NWay.compressTransposed o h (o.transposeMsg blocks) (NWay.addToCounts o lo hi delta).1
      (NWay.addToCounts o lo hi delta).2 f f1).map (o.ln i) =
    Portable.compressBlock a blocks[i] (h.map (o.ln i)) (o.cnt i lo hi + BitVec.ofNat _ d) (flagWord a b) (flagWord a b1) := by
  rw [compressTransposed_lane L, T.msg, portable_compressWords, hf, hf1]
  have := addToCounts_lane L i lo hi delta d hd hdb hc
  rw [VImpl.cnt, ← this, countLow_assemble, countHigh_assemble]

theorem loopIter_eq {o : VImpl a N R} (L : LaneLaws o) (T : TransposeLaws o) (s : Stride) (fin : Bool)
    (jobs : Vector (Job a) N) (K m : Nat) (hm : K = 0 ∨ K * s.padded a ≤ m)
    (hK : ∀ i : Fin N, K = 0 ∨ K * s.padded a < (jobs[i]).input.length)
    (F : NWay.Fin_ a N R) (hoff : F.offset = K * s.padded a)
    (hblk : ∀ i : Fin N, F.blocks[i] = Spec.pad a.bb (((jobs[i]).input.drop (K * s.padded a)).take a.bb))
    (hdel : ∀ i : Fin N, o.ln i F.countsDelta = BitVec.ofNat a.w (min a.bb ((jobs[i]).input.length - K * s.padded a)))
    (hlb : ∀ i : Fin N, o.ln i F.lastBlock =
      flagWord a (fin && decide ((jobs[i]).input.length - K * s.padded a ≤ s.padded a)))
    (hln : ∀ i : Fin N, o.ln i F.lastNode =
      flagWord a (fin && (decide ((jobs[i]).input.length - K * s.padded a ≤ s.padded a) && (jobs[i]).lastNode)))
    (fuel k : Nat) (hk : k ≤ K) (hf : K - k < fuel) (h : Vector R 8) (lo hi : R)
    (hcnt : ∀ i : Fin N, (o.cnt i lo hi).toNat % a.bb = 0) :
    ∃ h' lo' hi', NWay.loopIter o (jobs.map (·.input)) m F s fuel (k * s.padded a) h lo hi =
        .ok (K * s.padded a, h', lo', hi') ∧
      ∀ i : Fin N,
        ((jobs[i]).input.length - K * s.padded a ≤ s.padded a →
          h'.map (o.ln i) = absorb a s fin (jobs[i]).lastNode (h.map (o.ln i)) (o.cnt i lo hi)
            ((jobs[i]).input.drop (k * s.padded a))) ∧
        (¬ (jobs[i]).input.length - K * s.padded a ≤ s.padded a →
          absorb a s fin (jobs[i]).lastNode (h'.map (o.ln i)) (o.cnt i lo' hi')
            ((jobs[i]).input.drop ((K + 1) * s.padded a)) =
          absorb a s fin (jobs[i]).lastNode (h.map (o.ln i)) (o.cnt i lo hi)
            ((jobs[i]).input.drop (k * s.padded a)) ∧ (o.cnt i lo' hi').toNat % a.bb = 0) := by
  have hP := padded_pos a s
  have hbb := bb_le_padded a s
  induction fuel generalizing k h lo hi with
  | zero => omega
  | succ fuel ih =>
    rw [NWay.loopIter]
    by_cases hkK : k = K
    · subst hkK
      rw [hoff]
      simp only [bind, Except.bind, ↓reduceIte]
      refine ⟨_, _, _, rfl, ?_⟩
      intro i
      have hl := lane_compress L T i h F.blocks lo hi F.countsDelta F.lastBlock F.lastNode _ _ _ (hdel i)
        (Nat.min_le_left _ _) (hcnt i) (hlb i) (hln i)
      rw [hl, hblk i]
      constructor
      · intro hle
        have hle' : ((jobs[i]).input.drop (k * s.padded a)).length ≤ s.padded a := by rw [List.length_drop]; exact hle
        rw [absorb, if_pos hle']
        simp only [hle, decide_true, Bool.and_true, Bool.true_and, List.length_drop]
      · intro hnle
        have hnle' : ¬ ((jobs[i]).input.drop (k * s.padded a)).length ≤ s.padded a := by rw [List.length_drop]; exact hnle
        have hfull : (((jobs[i]).input.drop (k * s.padded a)).take a.bb).length = a.bb := by
          rw [List.length_take, List.length_drop]; omega
        have hmin : min a.bb ((jobs[i]).input.length - k * s.padded a) = a.bb := by omega
        have hadd : o.cnt i (NWay.addToCounts o lo hi F.countsDelta).1 (NWay.addToCounts o lo hi F.countsDelta).2 =
            o.cnt i lo hi + BitVec.ofNat _ a.bb := by
          have := addToCounts_lane L i lo hi F.countsDelta _ (hdel i) (Nat.min_le_left _ _) (hcnt i)
          rw [hmin] at this; exact this
        constructor
        · conv => rhs; rw [absorb, if_neg hnle']
          rw [hadd, hmin, List.drop_drop]
          simp only [hnle, decide_false, Bool.and_false, Bool.false_and]
          rw [Spec.pad, hfull, Nat.sub_self, List.replicate_zero, List.append_nil, Nat.add_mul k 1, Nat.one_mul]
        · rw [hadd]; exact count_add_mod _ (hcnt i)
    · have hlt : k * s.padded a + s.padded a ≤ K * s.padded a := by
        rw [← Nat.succ_mul]; exact Nat.mul_le_mul_right _ (by omega)
      have hne : k * s.padded a ≠ F.offset := by rw [hoff]; omega
      have hlen : ∀ i : Fin N, K * s.padded a < (jobs[i]).input.length := fun i => by
        rcases hK i with h | h
        · omega
        · exact h
      have hblocks : (jobs.map (·.input)).mapM (fun input => rawRef input (k * s.padded a) a.bb) =
          .ok ((jobs.map (·.input)).map fun input => (input.drop (k * s.padded a)).take a.bb) := by
        apply vector_mapM_ok
        intro x hx
        obtain ⟨i, hi, rfl⟩ := Vector.getElem_of_mem hx
        apply rawRef_ok
        have := hlen ⟨i, hi⟩
        simp only [Vector.getElem_map, Fin.getElem_fin] at *
        omega
      have hadd' : addUsize m (k * s.padded a) (s.padded a) = .ok (k * s.padded a + s.padded a) := by
        rw [addUsize, if_pos (by omega)]
      simp only [hblocks, if_neg hne, bind, Except.bind, hadd']
      have hd1 : ∀ i, o.ln i (o.set1 (BitVec.ofNat a.w a.bb)) = BitVec.ofNat a.w a.bb := fun i => L.set1 i _
      have h0 : ∀ i, o.ln i (o.set1 0) = flagWord a false := fun i => L.set1 i _
      have hadd : ∀ i, o.cnt i (NWay.addToCounts o lo hi (o.set1 (BitVec.ofNat a.w a.bb))).1
            (NWay.addToCounts o lo hi (o.set1 (BitVec.ofNat a.w a.bb))).2 = o.cnt i lo hi + BitVec.ofNat _ a.bb :=
        fun i => addToCounts_lane L i lo hi _ _ (hd1 i) (Nat.le_refl _) (hcnt i)
      obtain ⟨h', lo', hi', heq, hprop⟩ := ih (k + 1) (by omega) (by omega)
        (NWay.compressTransposed o h (o.transposeMsg ((jobs.map (·.input)).map fun input => (input.drop (k * s.padded a)).take a.bb))
          (NWay.addToCounts o lo hi (o.set1 (BitVec.ofNat a.w a.bb))).1
          (NWay.addToCounts o lo hi (o.set1 (BitVec.ofNat a.w a.bb))).2 (o.set1 0) (o.set1 0))
        (NWay.addToCounts o lo hi (o.set1 (BitVec.ofNat a.w a.bb))).1
        (NWay.addToCounts o lo hi (o.set1 (BitVec.ofNat a.w a.bb))).2
        (fun i => by rw [hadd i]; exact count_add_mod _ (hcnt i))
      rw [Nat.add_mul k 1, Nat.one_mul] at heq
      refine ⟨h', lo', hi', heq, ?_⟩
      intro i
      have hl := lane_compress L T i h ((jobs.map (·.input)).map fun input => (input.drop (k * s.padded a)).take a.bb)
        lo hi _ _ _ _ false false (hd1 i) (Nat.le_refl _) (hcnt i) (h0 i) (h0 i)
      have hnle : ¬ ((jobs[i]).input.drop (k * s.padded a)).length ≤ s.padded a := by
        rw [List.length_drop]; have := hlen i; omega
      have hstep : absorb a s fin (jobs[i]).lastNode (h.map (o.ln i)) (o.cnt i lo hi)
          ((jobs[i]).input.drop (k * s.padded a)) =
        absorb a s fin (jobs[i]).lastNode
          ((NWay.compressTransposed o h (o.transposeMsg ((jobs.map (·.input)).map fun input => (input.drop (k * s.padded a)).take a.bb))
          (NWay.addToCounts o lo hi (o.set1 (BitVec.ofNat a.w a.bb))).1
          (NWay.addToCounts o lo hi (o.set1 (BitVec.ofNat a.w a.bb))).2 (o.set1 0) (o.set1 0)).map (o.ln i))
          (o.cnt i (NWay.addToCounts o lo hi (o.set1 (BitVec.ofNat a.w a.bb))).1
            (NWay.addToCounts o lo hi (o.set1 (BitVec.ofNat a.w a.bb))).2)
          ((jobs[i]).input.drop ((k + 1) * s.padded a)) := by
        conv => lhs; rw [absorb, if_neg hnle]
        rw [hl, hadd i, List.drop_drop, Nat.add_mul k 1, Nat.one_mul]
        simp
      rw [hstep]
      exact hprop i

/-- **One call of an N-way loop.** It does not fault, it finishes at least one job, every finished job has the words of
the whole input, and every unfinished job has made progress without changing what it will finish with. -/
theorem compressLoop_spec {o : VImpl a N R} (L : LaneLaws o) (T : TransposeLaws o) (hN : 0 < N) (s : Stride) (fin : Bool)
    (jobs : Vector (Job a) N) (hok : ∀ i : Fin N, (jobs[i]).Ok fin) :
    ∃ jobs', NWay.compressLoop o jobs fin s = .ok jobs' ∧ (∀ i : Fin N, JobStep s fin jobs[i] jobs'[i]) ∧
      ∃ i : Fin N, (jobs'[i]).input = [] := by
  have hP := padded_pos a s
  have hbb := bb_le_padded a s
  obtain ⟨m, hm, hmem, hmle⟩ := listMin_spec (jobs.toList.map fun job => job.input.length) (by
    intro h
    have := congrArg List.length h
    simp at this; omega)
  have hmin : ∀ i : Fin N, m ≤ (jobs[i]).input.length := fun i => hmle _ (by
    apply List.mem_map.2; exact ⟨jobs[i], by simp, rfl⟩)
  obtain ⟨K, hKdef⟩ : ∃ K, K = (m - 1) / s.padded a := ⟨_, rfl⟩
  have hspec := finOffset_spec (s.padded a) m hP
  rw [← hKdef] at hspec
  have hoffle : ∀ i : Fin N, K * s.padded a ≤ (jobs[i]).input.length := fun i => by have := hmin i; omega
  have hK : ∀ i : Fin N, K = 0 ∨ K * s.padded a < (jobs[i]).input.length := fun i => by
    by_cases h0 : K = 0
    · exact .inl h0
    · right
      have h1 := Nat.div_mul_le_self (m - 1) (s.padded a)
      rw [← hKdef] at h1
      have h2 : 0 < K * s.padded a := Nat.mul_pos (by omega) hP
      have := hmin i; omega
  unfold NWay.compressLoop
  have hass : (jobs.toList.forM fun job => inputDebugAsserts a job.input fin) = .ok () := by
    apply list_forM_ok
    intro x hx
    obtain ⟨i, hi, rfl⟩ := Vector.getElem_of_mem (Vector.mem_toList_iff.1 hx)
    exact inputDebugAsserts_ok (hok ⟨i, hi⟩).input
  have hfins : (jobs.mapM fun job => finalBlock a job.input (K * s.padded a) (List.replicate a.bb 0) s) =
      .ok (jobs.map fun job => (Spec.pad a.bb ((job.input.drop (K * s.padded a)).take a.bb),
        min a.bb (job.input.length - K * s.padded a), decide (job.input.length - K * s.padded a ≤ s.padded a))) := by
    apply vector_mapM_ok
    intro x hx
    obtain ⟨i, hi, rfl⟩ := Vector.getElem_of_mem hx
    exact finalBlock_eq a s _ _ (hoffle ⟨i, hi⟩)
  simp only [hass, hm, bind, Except.bind, hspec.1, hfins]
  obtain ⟨F, hF⟩ : ∃ F : NWay.Fin_ a N R, F = {
      offset := K * s.padded a
      blocks := (jobs.map fun job => (Spec.pad a.bb ((job.input.drop (K * s.padded a)).take a.bb),
        min a.bb (job.input.length - K * s.padded a), decide (job.input.length - K * s.padded a ≤ s.padded a))).map (·.1)
      countsDelta := o.setN ((jobs.map fun job => (Spec.pad a.bb ((job.input.drop (K * s.padded a)).take a.bb),
        min a.bb (job.input.length - K * s.padded a), decide (job.input.length - K * s.padded a ≤ s.padded a))).map
          fun f => BitVec.ofNat a.w f.2.1)
      lastBlock := (if fin then
          (NWay.flagsVec o ((jobs.map fun job => (Spec.pad a.bb ((job.input.drop (K * s.padded a)).take a.bb),
            min a.bb (job.input.length - K * s.padded a),
            decide (job.input.length - K * s.padded a ≤ s.padded a))).map fun f => f.2.2),
          NWay.flagsVec o (Vector.ofFn fun i => (jobs.map fun job =>
            (Spec.pad a.bb ((job.input.drop (K * s.padded a)).take a.bb),
            min a.bb (job.input.length - K * s.padded a),
            decide (job.input.length - K * s.padded a ≤ s.padded a)))[i].2.2 && jobs[i].lastNode))
        else (o.set1 0, o.set1 0)).1
      lastNode := (if fin then
          (NWay.flagsVec o ((jobs.map fun job => (Spec.pad a.bb ((job.input.drop (K * s.padded a)).take a.bb),
            min a.bb (job.input.length - K * s.padded a),
            decide (job.input.length - K * s.padded a ≤ s.padded a))).map fun f => f.2.2),
          NWay.flagsVec o (Vector.ofFn fun i => (jobs.map fun job =>
            (Spec.pad a.bb ((job.input.drop (K * s.padded a)).take a.bb),
            min a.bb (job.input.length - K * s.padded a),
            decide (job.input.length - K * s.padded a ≤ s.padded a)))[i].2.2 && jobs[i].lastNode))
        else (o.set1 0, o.set1 0)).2 } := ⟨_, rfl⟩
  have hcnt0 : ∀ i : Fin N, o.cnt i (NWay.loadCounts o jobs).1 (NWay.loadCounts o jobs).2 = (jobs[i]).count := fun i => by
    simp only [VImpl.cnt, NWay.loadCounts, L.setN, Fin.getElem_fin, Vector.getElem_map, assemble_parts]
  obtain ⟨h', lo', hi', heq, hprop⟩ := loopIter_eq L T s fin jobs K m (by
      have := Nat.div_mul_le_self (m - 1) (s.padded a)
      rw [← hKdef] at this; omega) hK F (by rw [hF])
    (fun i => by simp [hF])
    (fun i => by simp [hF, L.setN])
    (fun i => by
      rw [hF]
      cases fin
      · simp only [Bool.false_eq_true, ↓reduceIte, Bool.false_and]; exact L.set1 i _
      · simp [NWay.flagsVec, L.setN])
    (fun i => by
      rw [hF]
      cases fin
      · simp only [Bool.false_eq_true, ↓reduceIte, Bool.false_and]; exact L.set1 i _
      · simp [NWay.flagsVec, L.setN])
    (m + 1) 0 (Nat.zero_le _) (by have := Nat.div_le_self (m - 1) (s.padded a); omega)
    (o.transposeState (jobs.map (·.words))) (NWay.loadCounts o jobs).1 (NWay.loadCounts o jobs).2
    (fun i => by rw [hcnt0 i]; exact (hok i).count)
  rw [Nat.zero_mul] at heq
  rw [← hF, heq]
  have hres : ((Vector.finRange N).mapM fun i => do
      let consumed := min (K * s.padded a + s.padded a) jobs[i].input.length
      let input ← sliceFrom jobs[i].input consumed
      (.ok { input := input, words := (o.untransposeState h')[i], count := (NWay.storeCounts o lo' hi')[i],
             lastNode := jobs[i].lastNode } : Res (Job a))) =
      .ok ((Vector.finRange N).map fun i =>
        { input := jobs[i].input.drop (min (K * s.padded a + s.padded a) jobs[i].input.length),
          words := (o.untransposeState h')[i], count := (NWay.storeCounts o lo' hi')[i], lastNode := jobs[i].lastNode }) := by
    apply vector_mapM_ok
    intro i _
    simp only [sliceFrom, if_pos (Nat.min_le_right _ _), bind, Except.bind]
  refine ⟨_, hres, ?_, ?_⟩
  · intro i
    simp only [Fin.getElem_fin, Vector.getElem_map, Vector.getElem_finRange]
    have hp := hprop i
    rw [T.state, hcnt0 i, Nat.zero_mul, List.drop_zero] at hp
    simp only [Fin.getElem_fin, Vector.getElem_map] at hp
    have hcnt' : (NWay.storeCounts o lo' hi')[i.1] = o.cnt i lo' hi' := by
      simp [NWay.storeCounts, VImpl.cnt, VImpl.ln]
    have hun := T.unstate i h'
    simp only [Fin.getElem_fin] at hun
    have hsucc : (K + 1) * s.padded a = K * s.padded a + s.padded a := by rw [Nat.add_mul, Nat.one_mul]
    constructor
    · rfl
    · intro he
      have he' : (jobs[i.1]).input.length - K * s.padded a ≤ s.padded a := by
        have := congrArg List.length he
        simp only [List.length_drop, List.length_nil] at this
        omega
      simp only [hun]
      exact hp.1 he'
    · intro hne
      have hne' : ¬ (jobs[i.1]).input.length - K * s.padded a ≤ s.padded a := by
        intro hle
        apply hne
        apply List.eq_nil_of_length_eq_zero
        simp only [List.length_drop]
        omega
      have hmn : min (K * s.padded a + s.padded a) (jobs[i.1]).input.length = K * s.padded a + s.padded a := by omega
      obtain ⟨hp1, hp2⟩ := hp.2 hne'
      rw [hsucc] at hp1
      refine ⟨?_, ⟨?_, ?_⟩, ?_⟩
      · simp only [Job.target, hun, hmn, hcnt']
        exact hp1
      · rcases (hok i).input with hfin | ⟨h1, h2⟩
        · exact .inl hfin
        · right
          refine ⟨hne, ?_⟩
          have hdv : a.bb ∣ K * s.padded a + s.padded a := by
            rw [← hsucc]
            apply Nat.dvd_mul_left_of_dvd
            cases s
            · exact Nat.dvd_refl _
            · exact ⟨parDegree a, by simp [Stride.padded, Nat.mul_comm]⟩
          simp only [hmn, List.length_drop]
          simp only [Fin.getElem_fin] at h2
          exact Nat.mod_eq_zero_of_dvd (Nat.dvd_sub (Nat.dvd_of_mod_eq_zero h2) hdv)
      · simp only [hcnt']; exact hp2
      · simp only [hmn, List.length_drop]; omega
  · obtain ⟨j, hj, hjm⟩ := List.mem_map.1 hmem
    obtain ⟨i, hi, rfl⟩ := Vector.getElem_of_mem (Vector.mem_toList_iff.1 hj)
    refine ⟨⟨i, hi⟩, ?_⟩
    simp only [Fin.getElem_fin, Vector.getElem_map, Vector.getElem_finRange]
    apply List.eq_nil_of_length_eq_zero
    simp only [List.length_drop]
    omega

end Blake2
