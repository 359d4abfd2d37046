import Verif.Proofs.ManyInv
import Verif.Model.Unwind
/-! # The scheduler when the caller's iterator panics -/
namespace Blake2
namespace Many

variable {a : Alg} {ι E : Type} [DecidableEq ι]

/-! ## With an iterator that ends, the functions are those of `Verif/Model/Many.lean` -/

theorem fillJobsVecP_false (src : Source a ι E) (T : Nat) (mem : ι → E) (queue : List ι) (vec : List (JobRef a ι)) :
    fillJobsVecP src false T mem queue vec = liftM (fillJobsVec src T mem queue vec) := by
  induction queue generalizing mem vec with
  | nil => simp [fillJobsVecP, fillJobsVec]; rfl
  | cons i queue ih =>
    rw [fillJobsVecP, fillJobsVec]
    by_cases h : vec.length < T
    · simp only [h, if_true]
      cases src.pull i (mem i) with
      | error e => rfl
      | ok r =>
        obtain ⟨e, job⟩ := r
        cases job with
        | none => exact ih _ _
        | some j =>
          simp only [ih]
          show ((liftM (push vec j) : Unwinding ι E _) >>= fun v => _) = liftM (push vec j >>= fun v => _)
          cases push vec j <;> rfl
    · simp only [h, if_false]; rfl

theorem levelIterP_false (src : Source a ι E) (N : Nat) (loopN : Vector (Job a) N → Res (Vector (Job a) N)) (fuel : Nat)
    (mem : ι → E) (queue : List ι) (vec : List (JobRef a ι)) :
    levelIterP src false N loopN fuel mem queue vec = liftM (levelIter src N loopN fuel mem queue vec) := by
  induction fuel generalizing mem queue vec with
  | zero => rfl
  | succ fuel ih =>
    rw [levelIterP, levelIter, fillJobsVecP_false]
    cases fillJobsVec src N mem queue vec with
    | error e => rfl
    | ok r =>
      obtain ⟨m, q, v⟩ := r
      show (if v.length < N then _ else _) = liftM (if v.length < N then _ else _)
      by_cases h : v.length < N
      · simp only [h, if_true]; rfl
      · simp only [h, if_false, ih]
        cases runWide src N loopN m v with
        | error e => rfl
        | ok r =>
          obtain ⟨m', v'⟩ := r
          show ((liftM (evictFinished v' N) : Unwinding ι E _) >>= fun v => _) = liftM (evictFinished v' N >>= fun v => _)
          cases evictFinished v' N <;> rfl

theorem levelP_false (src : Source a ι E) (d N : Nat) (loopN : Vector (Job a) N → Res (Vector (Job a) N))
    (mem : ι → E) (queue : List ι) (vec : List (JobRef a ι)) :
    levelP src false d N loopN mem queue vec = liftM (level src d N loopN mem queue vec) := by
  unfold levelP level
  split
  · exact levelIterP_false ..
  · rfl

theorem runQueueP_false (src : Source a ι E) (imp : Platform) (fin : Bool) (s : Stride) (mem : ι → E) (queue : List ι) :
    runQueueP src false imp fin s mem queue = liftM (runQueue src imp fin s mem queue) := by
  induction queue generalizing mem with
  | nil => rfl
  | cons i queue ih =>
    rw [runQueueP, runQueue]
    cases src.pull i (mem i) with
    | error e => rfl
    | ok r =>
      obtain ⟨e, job⟩ := r
      cases job with
      | none => exact ih _
      | some j =>
        simp only [ih]
        show ((liftM (runOne src imp fin s (store mem i e) j) : Unwinding ι E _) >>= fun v => _) =
          liftM (runOne src imp fin s (store mem i e) j >>= fun v => _)
        cases runOne src imp fin s (store mem i e) j <;> rfl

theorem compressManyP_false (src : Source a ι E) (imp : Platform) (fin : Bool) (s : Stride) (mem : ι → E) (queue : List ι) :
    compressManyP src false imp fin s mem queue = liftM (compressMany src imp fin s mem queue) := by
  unfold compressManyP compressMany
  simp only [levelP_false, runQueueP_false]
  cases level src (implDegree a imp) (hiDegree a) (fun jobs => compressHi a imp jobs fin s) mem queue [] with
  | error e => rfl
  | ok r =>
    obtain ⟨m, q, v⟩ := r
    show ((liftM (level src (implDegree a imp) (loDegree a) (fun jobs => compressLo a imp jobs fin s) m q v) :
      Unwinding ι E _) >>= fun v => _) = liftM (level src (implDegree a imp) (loDegree a)
        (fun jobs => compressLo a imp jobs fin s) m q v >>= fun v => _)
    cases level src (implDegree a imp) (loDegree a) (fun jobs => compressLo a imp jobs fin s) m q v with
    | error e => rfl
    | ok r =>
      obtain ⟨m, q, v⟩ := r
      show ((liftM (v.foldlM (runOne src imp fin s) m) : Unwinding ι E _) >>= fun v => _) =
        liftM (v.foldlM (runOne src imp fin s) m >>= fun v => _)
      cases (v.foldlM (runOne src imp fin s) m) <;> rfl

/-! ## With an iterator that panics -/

/-- What an unwound call leaves: fewer than `d` elements whose job was taken and not finished, everything else final. -/
def Left (src : Source a ι E) (final : ι → E) (d : Nat) (mem : ι → E) : Prop :=
  ∃ pend : List ι, pend.length < d ∧ (∀ i, i ∉ pend → mem i = final i) ∧
    ∀ i ∈ pend, ∃ w, src.setWords (mem i) w = final i

theorem Inv.left {src : Source a ι E} {s : Stride} {fin : Bool} {mem0 final mem : ι → E} {vec : List (JobRef a ι)} {d : Nat}
    (h : Inv src s fin mem0 final mem [] vec) (hd : vec.length < d) : Left src final d mem := by
  refine ⟨vec.map (·.id), by simpa using hd, fun i hi => h.rest i (by simp) hi, ?_⟩
  intro i hi
  obtain ⟨r, hr, rfl⟩ := List.mem_map.1 hi
  exact ⟨_, (h.pend r hr).2⟩

theorem Left.mono {src : Source a ι E} {final mem : ι → E} {d d' : Nat} (hd : d ≤ d') (h : Left src final d mem) :
    Left src final d' mem := by
  obtain ⟨p, h1, h2⟩ := h
  exact ⟨p, by omega, h2⟩

theorem fillJobsVecP_true {src : Source a ι E} (L : SrcLaws src) {s : Stride} {fin : Bool} {mem0 final : ι → E}
    (T : Nat) (hT : T ≤ maxDegree a) (queue : List ι) (mem : ι → E) (vec : List (JobRef a ι))
    (hpull : ∀ i ∈ queue, PullOk src s fin i (mem0 i) (final i))
    (h : Inv src s fin mem0 final mem queue vec) :
    (∃ mem', fillJobsVecP src true T mem queue vec = (.ok (.error mem') : Res _) ∧ Left src final T mem') ∨
    ∃ mem' queue' vec', fillJobsVecP src true T mem queue vec = (.ok (.ok (mem', queue', vec')) : Res _) ∧
      Inv src s fin mem0 final mem' queue' vec' ∧ (∀ i ∈ queue', i ∈ queue) ∧
      queue'.length + vec'.length ≤ queue.length + vec.length ∧ T ≤ vec'.length := by
  induction queue generalizing mem vec with
  | nil =>
    by_cases hlt : vec.length < T
    · left
      refine ⟨mem, by rw [fillJobsVecP, if_pos ⟨hlt, rfl⟩]; rfl, h.left hlt⟩
    · right
      refine ⟨mem, [], vec, by rw [fillJobsVecP, if_neg (by simp [hlt])]; rfl, h, by simp, Nat.le_refl _, by omega⟩
  | cons i queue ih =>
    rw [fillJobsVecP]
    by_cases hlt : vec.length < T
    · rw [if_pos hlt]
      obtain ⟨e, job, hp, hi⟩ := pull_inv L (hpull i (by simp)) h
      rw [hp]
      cases job with
      | none =>
        rcases ih _ _ (fun j hj => hpull j (by simp [hj])) hi with h1 | ⟨m, q, v, h1, h2, h3, h4, h5⟩
        · exact .inl h1
        · exact .inr ⟨m, q, v, h1, h2, fun j hj => by simp [h3 j hj], by simp; omega, h5⟩
      | some j =>
        have hpush : push vec j = .ok (vec ++ [j]) := by rw [push, if_pos (by omega)]
        rcases ih _ _ (fun j hj => hpull j (by simp [hj])) hi with ⟨m, h1, h2⟩ | ⟨m, q, v, h1, h2, h3, h4, h5⟩
        · refine .inl ⟨m, ?_, h2⟩
          show ((liftM (push vec j) : Unwinding ι E _) >>= fun v => fillJobsVecP src true T (store mem i e) queue v) = _
          rw [hpush]; exact h1
        · refine .inr ⟨m, q, v, ?_, h2, fun j hj => by simp [h3 j hj], by simp at h4 ⊢; omega, h5⟩
          show ((liftM (push vec j) : Unwinding ι E _) >>= fun v => fillJobsVecP src true T (store mem i e) queue v) = _
          rw [hpush]; exact h1
    · rw [if_neg hlt]
      exact .inr ⟨mem, i :: queue, vec, rfl, h, by simp, Nat.le_refl _, by omega⟩

/-- A level that is entered is left by the panic. -/
theorem levelIterP_true {src : Source a ι E} (L : SrcLaws src) {s : Stride} {fin : Bool} {mem0 final : ι → E}
    {N : Nat} (hN : N ≤ maxDegree a) {loopN : Vector (Job a) N → Res (Vector (Job a) N)} (hloop : LoopOk s fin N loopN)
    (fuel : Nat) (queue : List ι) (mem : ι → E) (vec : List (JobRef a ι))
    (hpull : ∀ i ∈ queue, PullOk src s fin i (mem0 i) (final i)) (hf : queue.length + vec.length < fuel)
    (h : Inv src s fin mem0 final mem queue vec) :
    ∃ mem', levelIterP src true N loopN fuel mem queue vec = (.ok (.error mem') : Res _) ∧ Left src final N mem' := by
  induction fuel generalizing queue mem vec with
  | zero => omega
  | succ fuel ih =>
    rw [levelIterP]
    rcases fillJobsVecP_true L N hN queue mem vec hpull h with ⟨m, h1, h2⟩ | ⟨m1, q1, v1, h1, h2, h3, h4, h5⟩
    · rw [h1]; exact ⟨m, rfl, h2⟩
    · rw [h1]
      obtain ⟨m2, v2, v3, h6, h7, h8, h9⟩ := wide_inv L hloop q1 m1 v1 h5 h2
      obtain ⟨m4, h10, h11⟩ := ih q1 m2 v3 (fun i hi => hpull i (h3 i hi)) (by omega) h8
      refine ⟨m4, ?_, h11⟩
      show (if v1.length < N then _ else _) = _
      rw [if_neg (by omega), h6]
      show ((liftM (evictFinished v2 N) : Unwinding ι E _) >>= fun v => levelIterP src true N loopN fuel m2 q1 v) = _
      rw [h7]; exact h10

theorem runQueueP_true {src : Source a ι E} (L : SrcLaws src) {s : Stride} {fin : Bool} {mem0 final : ι → E} (imp : Platform)
    (queue : List ι) (mem : ι → E) (hpull : ∀ i ∈ queue, PullOk src s fin i (mem0 i) (final i))
    (h : Inv src s fin mem0 final mem queue []) :
    runQueueP src true imp fin s mem queue = (.ok (.error final) : Res _) := by
  induction queue generalizing mem with
  | nil =>
    have : mem = final := funext fun i => h.rest i (by simp) (by simp)
    rw [this]; rfl
  | cons i queue ih =>
    obtain ⟨e, job, hp, hi⟩ := pull_inv L (hpull i (by simp)) h
    rw [runQueueP, hp]
    cases job with
    | none => exact ih _ (fun j hj => hpull j (by simp [hj])) hi
    | some j =>
      obtain ⟨m1, h1, h2⟩ := runOne_inv imp queue _ j [] hi
      show ((liftM (runOne src imp fin s (store mem i e) j) : Unwinding ι E _) >>= fun v =>
        runQueueP src true imp fin s v queue) = _
      rw [h1]; exact ih _ (fun j hj => hpull j (by simp [hj])) h2

end Many

open Many in
/-- `compress_many` on an iterator that panics: it faults nowhere itself, and fewer than `degree` of the elements taken
are left unfinished. -/
theorem compressManyP_true {a : Alg} {ι E : Type} [DecidableEq ι] {src : Source a ι E} (L : SrcLaws src) (imp : Platform)
    (fin : Bool) (s : Stride) (mem0 final : ι → E) (queue : List ι) (hnd : queue.Nodup)
    (hpull : ∀ i ∈ queue, PullOk src s fin i (mem0 i) (final i)) (hrest : ∀ i, i ∉ queue → mem0 i = final i) :
    ∃ mem, compressManyP src true imp fin s mem0 queue = (.ok (.error mem) : Res _) ∧
      Left src final (implDegree a imp) mem := by
  have h0 : Inv src s fin mem0 final mem0 queue [] := ⟨by simpa using hnd, fun _ _ => rfl, by simp, fun i hi _ => hrest i hi⟩
  have hhi : hiDegree a ≤ maxDegree a := by cases a <;> decide
  have hlo : loDegree a ≤ maxDegree a := by cases a <;> decide
  unfold compressManyP levelP
  by_cases h1 : implDegree a imp ≥ hiDegree a
  · obtain ⟨m, e, l⟩ := levelIterP_true L hhi (compressHi_ok a imp s fin h1) _ queue mem0 [] hpull (Nat.lt_succ_self _) h0
    rw [if_pos h1, e]
    exact ⟨m, rfl, l.mono h1⟩
  · rw [if_neg h1]
    by_cases h2 : implDegree a imp ≥ loDegree a
    · obtain ⟨m, e, l⟩ := levelIterP_true L hlo (compressLo_ok a imp s fin h2) _ queue mem0 [] hpull (Nat.lt_succ_self _) h0
      refine ⟨m, ?_, l.mono h2⟩
      show ((if _ then levelIterP src true (loDegree a) _ _ mem0 queue [] else _) >>= fun _ => _) = _
      rw [if_pos h2, e]; rfl
    · refine ⟨final, ?_, [], show 0 < implDegree a imp by cases a <;> cases imp <;> decide, fun _ _ => rfl, by simp⟩
      show ((if _ then levelIterP src true (loDegree a) _ _ mem0 queue [] else _) >>= fun _ => _) = _
      rw [if_neg h2]
      exact runQueueP_true L imp queue mem0 hpull h0

end Blake2
