import Verif.Model.Trace
/-! # Forgetting the log of the instrumented functions gives the model -/
namespace Blake2
namespace Traced

variable {a : Alg} {ι κ α β : Type}

theorem erase_pure (x : α) : (pure x : Traced a ι α).erase = .ok x := rfl

theorem erase_bind (m : Traced a ι α) (f : α → Traced a ι β) :
    (m >>= f).erase = m.erase >>= fun x => (f x).erase := by
  cases m with
  | error e => rfl
  | ok r =>
    obtain ⟨x, l⟩ := r
    show erase ((Except.bind (f x) fun r' => Except.ok (r'.1, l ++ r'.2) : Res _) : Traced a ι β) = (f x).erase
    cases f x <;> rfl

theorem erase_lift (m : Res α) : (liftM m : Traced a ι α).erase = m := by
  cases m <;> rfl

theorem erase_monadLift (m : Res α) : (monadLift m : Traced a ι α).erase = m := erase_lift m

theorem erase_emit (p : Pass a ι) : (emit p).erase = .ok () := rfl

theorem erase_fail (e : Fault) : (fail e : Traced a ι α).erase = .error e := rfl

theorem erase_relabel (f : ι → κ) (m : Traced a ι α) : (m.relabel f).erase = m.erase := by
  unfold relabel erase
  cases m <;> rfl

theorem erase_ite (c : Prop) [Decidable c] (m m' : Traced a ι α) :
    (if c then m else m').erase = if c then m.erase else m'.erase := by split <;> rfl

end Traced

open Traced

section
variable {a : Alg} {ι : Type}

theorem compress1IterT_erase (who : ι) (cb : CompressBlock a) (rd : List Byte → Nat → Nat → Res (List Byte))
    (input : List Byte) (off : Nat) (blk : List Byte) (len : Nat) (f f1 : Word a) (s : Stride) (fuel k : Nat) (c : Count a)
    (w : Vector (Word a) 8) :
    (compress1IterT who a cb rd input off blk len f f1 s fuel k c w).erase =
      compress1Iter a cb rd input off blk len f f1 s fuel k c w := by
  induction fuel generalizing k c w with
  | zero => rfl
  | succ fuel ih =>
    rw [compress1IterT, compress1Iter, erase_bind, erase_lift]
    congr 1
    funext ⟨b, d, x, y⟩
    simp only [erase_bind, erase_emit, erase_ite, erase_lift, erase_pure, ih]
    rfl

theorem compress1LoopT_erase (who : ι) (cb : CompressBlock a) (rd : List Byte → Nat → Nat → Res (List Byte))
    (input : List Byte) (w : Vector (Word a) 8) (c : Count a) (ln fin : Bool) (s : Stride) :
    (compress1LoopT who a cb rd input w c ln fin s).erase = compress1Loop a cb rd input w c ln fin s := by
  simp only [compress1LoopT, compress1Loop, erase_bind, erase_lift, compress1IterT_erase]

theorem compress1T_erase (who : ι) (plat : Platform) (input : List Byte) (w : Vector (Word a) 8) (c : Count a)
    (ln fin : Bool) (s : Stride) :
    (compress1T who a plat input w c ln fin s).erase = compress1 a plat input w c ln fin s := by
  cases a <;> cases plat <;> exact compress1LoopT_erase ..

theorem loopIterT_erase {N : Nat} {R : Type} (o : VImpl a N R) (ids : Vector ι N) (inputs : Vector (List Byte) N) (m : Nat)
    (F : NWay.Fin_ a N R) (s : Stride) (fuel k : Nat) (h : Vector R 8) (lo hi : R) :
    (NWay.loopIterT o ids inputs m F s fuel k h lo hi).erase = NWay.loopIter o inputs m F s fuel k h lo hi := by
  induction fuel generalizing k h lo hi with
  | zero => rfl
  | succ fuel ih =>
    rw [NWay.loopIterT, NWay.loopIter, erase_bind, erase_lift]
    congr 1
    funext ⟨b, d, x, y⟩
    simp only [erase_bind, erase_emit, erase_ite, erase_lift, erase_pure, ih]
    rfl

theorem compressLoopT_erase {N : Nat} {R : Type} (o : VImpl a N R) (ids : Vector ι N) (jobs : Vector (Job a) N) (fin : Bool)
    (s : Stride) : (NWay.compressLoopT o ids jobs fin s).erase = NWay.compressLoop o jobs fin s := by
  unfold NWay.compressLoopT NWay.compressLoop
  simp only [erase_bind, erase_lift, loopIterT_erase]
  cases NWay.listMin (jobs.toList.map fun job => job.input.length) <;> rfl

theorem compressHiT_erase (plat : Platform) (ids : Vector ι (hiDegree a)) (jobs : Vector (Job a) (hiDegree a)) (fin : Bool)
    (s : Stride) : (compressHiT a plat ids jobs fin s).erase = compressHi a plat jobs fin s := by
  cases a <;> cases plat <;> first | rfl | exact compressLoopT_erase ..

theorem compressLoT_erase (plat : Platform) (ids : Vector ι (loDegree a)) (jobs : Vector (Job a) (loDegree a)) (fin : Bool)
    (s : Stride) : (compressLoT a plat ids jobs fin s).erase = compressLo a plat jobs fin s := by
  cases a <;> cases plat <;> first | rfl | exact compressLoopT_erase ..

end

namespace Many
variable {a : Alg} {ι E : Type} [DecidableEq ι]

theorem fillJobsVecT_erase (src : SourceT a ι E) (T : Nat) (mem : ι → E) (queue : List ι) (vec : List (JobRef a ι)) :
    (fillJobsVecT src T mem queue vec).erase = fillJobsVec src.erase T mem queue vec := by
  induction queue generalizing mem vec with
  | nil => rfl
  | cons i queue ih =>
    rw [fillJobsVecT, fillJobsVec, erase_ite, erase_bind]
    congr 1
    show _ = ((src.pull i (mem i)).erase >>= _)
    congr 1
    funext ⟨e, job⟩
    cases job with
    | none => exact ih ..
    | some j => simp only [erase_bind, erase_lift, ih]

theorem runWideT_erase (src : SourceT a ι E) (N : Nat) (loopT : Vector ι N → Vector (Job a) N → Traced a ι (Vector (Job a) N))
    (loopN : Vector (Job a) N → Res (Vector (Job a) N)) (hl : ∀ ids jobs, (loopT ids jobs).erase = loopN jobs)
    (mem : ι → E) (vec : List (JobRef a ι)) :
    (runWideT src N loopT mem vec).erase = runWide src.erase N loopN mem vec := by
  unfold runWideT runWide
  by_cases h : (vec.take N).length = N
  · rw [dif_pos h, dif_pos h]
    refine (erase_bind _ _).trans ?_
    rw [hl]; rfl
  · rw [dif_neg h, dif_neg h]; rfl

theorem levelIterT_erase (src : SourceT a ι E) (N : Nat)
    (loopT : Vector ι N → Vector (Job a) N → Traced a ι (Vector (Job a) N))
    (loopN : Vector (Job a) N → Res (Vector (Job a) N)) (hl : ∀ ids jobs, (loopT ids jobs).erase = loopN jobs)
    (fuel : Nat) (mem : ι → E) (queue : List ι) (vec : List (JobRef a ι)) :
    (levelIterT src N loopT fuel mem queue vec).erase = levelIter src.erase N loopN fuel mem queue vec := by
  induction fuel generalizing mem queue vec with
  | zero => rfl
  | succ fuel ih =>
    rw [levelIterT, levelIter, erase_bind, fillJobsVecT_erase]
    congr 1
    funext ⟨m, q, v⟩
    simp only [erase_ite, erase_pure, erase_bind, erase_lift, runWideT_erase src N loopT loopN hl, ih]

theorem levelT_erase (src : SourceT a ι E) (d N : Nat)
    (loopT : Vector ι N → Vector (Job a) N → Traced a ι (Vector (Job a) N))
    (loopN : Vector (Job a) N → Res (Vector (Job a) N)) (hl : ∀ ids jobs, (loopT ids jobs).erase = loopN jobs)
    (mem : ι → E) (queue : List ι) (vec : List (JobRef a ι)) :
    (levelT src d N loopT mem queue vec).erase = level src.erase d N loopN mem queue vec := by
  simp only [levelT, level, erase_ite, erase_pure, levelIterT_erase src N loopT loopN hl]

theorem runOneT_erase (src : SourceT a ι E) (imp : Platform) (fin : Bool) (s : Stride) (mem : ι → E) (r : JobRef a ι) :
    (runOneT src imp fin s mem r).erase = runOne src.erase imp fin s mem r := by
  unfold runOneT runOne
  rw [erase_bind, compress1T_erase]; rfl

theorem runVecT_erase (src : SourceT a ι E) (imp : Platform) (fin : Bool) (s : Stride) (mem : ι → E)
    (vec : List (JobRef a ι)) :
    (runVecT src imp fin s mem vec).erase = vec.foldlM (runOne src.erase imp fin s) mem := by
  induction vec generalizing mem with
  | nil => rfl
  | cons r vec ih =>
    rw [runVecT, List.foldlM_cons, erase_bind, runOneT_erase]
    simp only [ih]

theorem runQueueT_erase (src : SourceT a ι E) (imp : Platform) (fin : Bool) (s : Stride) (mem : ι → E) (queue : List ι) :
    (runQueueT src imp fin s mem queue).erase = runQueue src.erase imp fin s mem queue := by
  induction queue generalizing mem with
  | nil => rfl
  | cons i queue ih =>
    rw [runQueueT, runQueue, erase_bind]
    show _ = ((src.pull i (mem i)).erase >>= _)
    congr 1
    funext ⟨e, job⟩
    cases job with
    | none => exact ih ..
    | some j => simp only [erase_bind, runOneT_erase, ih]

theorem compressManyT_erase (src : SourceT a ι E) (imp : Platform) (fin : Bool) (s : Stride) (mem : ι → E) (queue : List ι) :
    (compressManyT src imp fin s mem queue).erase = compressMany src.erase imp fin s mem queue := by
  unfold compressManyT compressMany
  simp only [erase_bind, levelT_erase src _ _ _ _ (fun ids jobs => compressHiT_erase imp ids jobs fin s),
    levelT_erase src _ _ _ _ (fun ids jobs => compressLoT_erase imp ids jobs fin s), runVecT_erase, runQueueT_erase]

end Many

section
variable {a : Alg} {ι : Type}

theorem compressBufferIfPossibleT_erase (who : ι) (s : State a) (x : List Byte) :
    (s.compressBufferIfPossibleT who x).erase = s.compressBufferIfPossible x := by
  unfold State.compressBufferIfPossibleT State.compressBufferIfPossible
  simp only [erase_ite, erase_bind, erase_lift, erase_pure, compress1T_erase]

theorem updateT_erase (who : ι) (s : State a) (x : List Byte) : (s.updateT who x).erase = s.update x := by
  unfold State.updateT State.update
  simp only [erase_ite, erase_bind, erase_lift, erase_pure, compress1T_erase, compressBufferIfPossibleT_erase]

theorem finalizeT_erase (who : ι) (s : State a) : (s.finalizeT who).erase = s.finalize := by
  unfold State.finalizeT State.finalize
  simp only [erase_bind, erase_lift, erase_pure, compress1T_erase]

theorem hashT_erase (who : ι) (p : Params a) (x : List Byte) : (p.hashT who x).erase = p.hash x := by
  unfold Params.hashT Params.hash
  simp only [erase_ite, erase_bind, erase_pure, compress1T_erase, updateT_erase, finalizeT_erase]

theorem updateManyPullT_erase (i : ι) (x : List Byte) (s : State a) :
    (updateManyPullT i x s).erase = updateManyPull i x s := by
  unfold updateManyPullT updateManyPull
  simp only [erase_ite, erase_bind, erase_lift, erase_pure, compressBufferIfPossibleT_erase]

theorem updateManyT_erase (pairs : List (State a × List Byte)) : (updateManyT pairs).erase = updateMany pairs := by
  cases pairs with
  | nil => rfl
  | cons first rest =>
    simp only [updateManyT, updateMany, erase_bind, erase_pure, Many.compressManyT_erase, SourceT.erase,
      updateManyPullT_erase]

theorem newT_erase (who : ι) (p : Params a) (x : List Byte) : (HashManyJob.newT who p x).erase = HashManyJob.new p x := by
  unfold HashManyJob.newT HashManyJob.new
  simp only [erase_ite, erase_bind, erase_pure, compress1T_erase]

theorem hashManyT_erase (jobs : List (HashManyJob a)) : (hashManyT jobs).erase = hashMany jobs := by
  cases jobs with
  | nil => rfl
  | cons first rest =>
    simp only [hashManyT, hashMany, erase_bind, erase_pure, Many.compressManyT_erase, SourceT.erase, erase_lift]

theorem compressLeavesT_erase (mk : Fin (parDegree a) → Res (List Byte × Count a × Bool)) (imp : Platform) (fin : Bool)
    (leaves : LeafWords a) : (compressLeavesT mk imp fin leaves).erase = compressLeaves mk imp fin leaves := by
  simp only [compressLeavesT, compressLeaves, erase_bind, erase_pure, erase_relabel, Many.compressManyT_erase, SourceT.erase,
    erase_lift]

theorem finalizeRootWordsT_erase (lw : LeafWords a) (rw : Vector (Word a) 8) (len : BitVec 8) (imp : Platform) :
    (finalizeRootWordsT lw rw len imp).erase = finalizeRootWords lw rw len imp := by
  simp only [finalizeRootWordsT, finalizeRootWords, erase_bind, erase_pure, compress1T_erase]

theorem pstate_updateT_erase (s : PState a) (x : List Byte) : (s.updateT x).erase = s.update x := by
  simp only [PState.updateT, PState.update, PState.updateBufferedT, PState.updateBuffered, PState.updateBulkT,
    PState.updateBulk, PState.compressToLeavesT, PState.compressToLeaves, erase_ite, erase_bind, erase_lift, erase_pure,
    compressLeavesT_erase]

theorem pstate_finalizeT_erase (s : PState a) : s.finalizeT.erase = s.finalize := by
  simp only [PState.finalizeT, PState.finalize, erase_bind, compressLeavesT_erase, finalizeRootWordsT_erase]

theorem pparams_hashT_erase (p : PParams a) (x : List Byte) : (p.hashT x).erase = p.hash x := by
  simp only [PParams.hashT, PParams.hash, erase_ite, erase_bind, erase_lift, compressLeavesT_erase, finalizeRootWordsT_erase,
    pstate_updateT_erase, pstate_finalizeT_erase]

end
end Blake2
