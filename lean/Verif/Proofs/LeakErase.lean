import Verif.Model.Leak
/-! # Forgetting the log of what is revealed gives the model -/
namespace Blake2
namespace Leaky

variable {α β : Type}

theorem erase_pure (x : α) : (pure x : Leaky α).erase = .ok x := rfl

theorem erase_bind (m : Leaky α) (f : α → Leaky β) : (m >>= f).erase = m.erase >>= fun x => (f x).erase := by
  show (Leaky.bind m f).erase = _
  unfold Leaky.bind
  cases m.erase <;> rfl

theorem erase_fault (e : Fault) : (fault e : Leaky α).erase = .error e := rfl

theorem erase_reveal (x : Leak) : (reveal x).erase = .ok () := rfl

theorem erase_branch (c : Prop) [Decidable c] (t e : Leaky α) : (branch c t e).erase = if c then t.erase else e.erase := by
  unfold branch
  split <;> rfl

theorem erase_ite (c : Prop) [Decidable c] (m m' : Leaky α) :
    (if c then m else m').erase = if c then m.erase else m'.erase := by split <;> rfl

theorem ok_bind' (x : α) (f : α → Res β) : (Except.ok x >>= f) = f x := rfl

theorem erase_mapList (f : α → Leaky β) (l : List α) : (mapList f l).erase = l.mapM fun x => (f x).erase := by
  induction l with
  | nil => rfl
  | cons x xs ih =>
    rw [List.mapM_cons, mapList, erase_bind]
    congr 1
    funext y
    rw [erase_bind, ih]
    rfl

theorem erase_mapVector {N : Nat} (f : α → Leaky β) (v : Vector α N) :
    (mapVector f v).erase = v.mapM fun x => (f x).erase := by
  have h1 : Vector.toArray <$> (v.mapM fun x => (f x).erase) = v.toArray.mapM fun x => (f x).erase := Vector.toArray_mapM
  rw [Array.mapM_eq_mapM_toList] at h1
  rw [mapVector, erase_bind, erase_mapList]
  have h2 : v.toArray.toList = v.toList := rfl
  rw [h2] at h1
  cases hl : (v.toList.mapM fun x => (f x).erase) with
  | error e =>
    rw [hl] at h1
    cases hv : v.mapM fun x => (f x).erase with
    | error e' =>
      rw [hv] at h1
      have : e' = e := by simpa [Functor.map, Except.map] using h1
      rw [this]; rfl
    | ok w => rw [hv] at h1; cases h1
  | ok ys =>
    rw [hl] at h1
    cases hv : v.mapM fun x => (f x).erase with
    | error e' => rw [hv] at h1; cases h1
    | ok w =>
      rw [hv] at h1
      have h3 : w.toArray = ys.toArray := by simpa [Functor.map, Except.map] using h1
      have h4 : ys.toArray.size = N := by rw [← h3]; exact w.size_toArray
      show (if h : ys.toArray.size = N then (pure ⟨ys.toArray, h⟩ : Leaky (Vector β N)) else fault .panic).erase = _
      rw [dif_pos h4, erase_pure]
      congr 1
      exact Vector.toArray_inj.1 h3.symm

end Leaky

open Leaky

theorem sliceFromL_erase (l : List Byte) (i : Nat) : (sliceFromL l i).erase = sliceFrom l i := by
  simp only [sliceFromL, erase_bind, erase_reveal, ok_bind', erase_branch, erase_pure, erase_fault]; rfl

theorem sliceToL_erase (l : List Byte) (i : Nat) : (sliceToL l i).erase = sliceTo l i := by
  simp only [sliceToL, erase_bind, erase_reveal, ok_bind', erase_branch, erase_pure, erase_fault]; rfl

theorem copyRangeL_erase (l : List Byte) (lo hi : Nat) (src : List Byte) :
    (copyRangeL l lo hi src).erase = copyRange l lo hi src := by
  simp only [copyRangeL, erase_bind, erase_reveal, ok_bind', erase_branch, erase_pure, erase_fault]; rfl

theorem arrayRefL_erase (l : List Byte) (off n : Nat) : (arrayRefL l off n).erase = arrayRef l off n := by
  simp only [arrayRefL, erase_bind, erase_reveal, ok_bind', erase_branch, erase_pure, erase_fault]; rfl

theorem rawRefL_erase (l : List Byte) (off n : Nat) : (rawRefL l off n).erase = rawRef l off n := by
  simp only [rawRefL, erase_bind, erase_reveal, ok_bind', erase_ite, erase_pure, erase_fault]; rfl

theorem rassertL_erase (c : Bool) : (rassertL c).erase = rassert c := by
  simp only [rassertL, erase_branch, erase_pure, erase_fault]; rfl

theorem checkedSubL_erase (x y : Nat) : (checkedSubL x y).erase = checkedSub x y := by
  simp only [checkedSubL, erase_branch, erase_pure, erase_fault]; rfl

theorem addUsizeL_erase (l x y : Nat) : (addUsizeL l x y).erase = addUsize l x y := by
  simp only [addUsizeL, erase_branch, erase_pure, erase_fault]; rfl

theorem addU8L_erase (x y : Nat) : (addU8L x y).erase = addU8 x y := by
  simp only [addU8L, erase_branch, erase_pure, erase_fault]; rfl

theorem addU16L_erase (x y : Nat) : (addU16L x y).erase = addU16 x y := by
  simp only [addU16L, erase_branch, erase_pure, erase_fault]; rfl

theorem minL_erase (x y : Nat) : (minL x y).erase = .ok (min x y) := by
  simp only [minL, erase_branch, erase_pure]
  rw [Nat.min_def]
  split <;> rfl

theorem flagWordL_erase (a : Alg) (b : Bool) : (flagWordL a b).erase = .ok (flagWord a b) := by
  simp only [flagWordL, erase_branch, erase_pure]
  cases b <;> rfl

theorem finalBlockL_erase (a : Alg) (input : List Byte) (off : Nat) (buf : List Byte) (s : Stride) :
    (finalBlockL a input off buf s).erase = finalBlock a input off buf s := by
  simp only [finalBlockL, finalBlock, erase_bind, minL_erase, ok_bind', sliceFromL_erase, erase_branch, arrayRefL_erase,
    copyRangeL_erase, erase_pure]

theorem inputDebugAssertsL_erase (a : Alg) (input : List Byte) (fin : Bool) :
    (inputDebugAssertsL a input fin).erase = inputDebugAsserts a input fin := by
  simp only [inputDebugAssertsL, inputDebugAsserts, erase_bind, erase_branch, rassertL_erase, erase_pure]

namespace Portable

theorem gL_erase (al : Alg) (v : Vector (Word al) 16) (a b c d : Fin 16) (x y : Word al) :
    (gL al v a b c d x y).erase = .ok (g al v a b c d x y) := rfl

theorem loadL_erase {al : Alg} (m : Vector (Word al) 16) (i : Fin 16) : (loadL m i).erase = .ok m[i] := rfl

theorem roundL_erase (a : Alg) (m v : Vector (Word a) 16) (r : Fin a.rows) : (roundL a m v r).erase = .ok (round a m v r) := by
  simp only [roundL, erase_bind, erase_reveal, ok_bind', gL_erase, loadL_erase]
  rfl

theorem roundsL_erase (a : Alg) (m : Vector (Word a) 16) (rs : List (Fin a.rows)) (v : Vector (Word a) 16) :
    (roundsL a m rs v).erase = .ok (rs.foldl (round a m) v) := by
  induction rs generalizing v with
  | nil => rfl
  | cons r rs ih => simp only [roundsL, erase_bind, roundL_erase, ok_bind', ih, List.foldl_cons]

theorem compressBlockL_erase (a : Alg) (block : List Byte) (words : Vector (Word a) 8) (c : Count a) (f f1 : Word a) :
    (compressBlockL a block words c f f1).erase = .ok (compressBlock a block words c f f1) := by
  simp only [compressBlockL, erase_bind, roundsL_erase, ok_bind', erase_pure]
  rfl

end Portable

section
variable {a : Alg}

theorem compress1IterL_erase (cbL : CompressBlockL a) (cb : CompressBlock a)
    (hcb : ∀ b w c f f1, (cbL b w c f f1).erase = .ok (cb b w c f f1))
    (rdL : List Byte → Nat → Nat → Leaky (List Byte)) (rd : List Byte → Nat → Nat → Res (List Byte))
    (hrd : ∀ l i n, (rdL l i n).erase = rd l i n)
    (input : List Byte) (off : Nat) (blk : List Byte) (len : Nat) (f f1 : Word a) (s : Stride) (fuel k : Nat) (c : Count a)
    (w : Vector (Word a) 8) :
    (compress1IterL a cbL rdL input off blk len f f1 s fuel k c w).erase =
      compress1Iter a cb rd input off blk len f f1 s fuel k c w := by
  induction fuel generalizing k c w with
  | zero => rfl
  | succ fuel ih =>
    rw [compress1IterL, compress1Iter, erase_bind]
    simp only [erase_branch, erase_bind, hrd, flagWordL_erase, ok_bind', erase_pure, hcb, addUsizeL_erase, ih]

theorem compress1LoopL_erase (cbL : CompressBlockL a) (cb : CompressBlock a)
    (hcb : ∀ b w c f f1, (cbL b w c f f1).erase = .ok (cb b w c f f1))
    (rdL : List Byte → Nat → Nat → Leaky (List Byte)) (rd : List Byte → Nat → Nat → Res (List Byte))
    (hrd : ∀ l i n, (rdL l i n).erase = rd l i n)
    (input : List Byte) (w : Vector (Word a) 8) (c : Count a) (ln fin : Bool) (s : Stride) :
    (compress1LoopL a cbL rdL input w c ln fin s).erase = compress1Loop a cb rd input w c ln fin s := by
  simp only [compress1LoopL, compress1Loop, erase_bind, inputDebugAssertsL_erase, finalBlockL_erase, flagWordL_erase, ok_bind',
    compress1IterL_erase cbL cb hcb rdL rd hrd]

theorem compress1L_erase (a : Alg) (imp : Platform) (input : List Byte) (w : Vector (Word a) 8) (c : Count a) (ln fin : Bool)
    (s : Stride) : (compress1L a imp input w c ln fin s).erase = compress1 a imp input w c ln fin s := by
  simp only [compress1L, erase_bind, erase_reveal, ok_bind']
  cases a with
  | b =>
    cases imp with
    | AVX2 =>
      exact compress1LoopL_erase (straight BAvx2.compressBlock) BAvx2.compressBlock (fun _ _ _ _ _ => erase_pure _) rawRefL rawRef
        rawRefL_erase input w c ln fin s
    | SSE41 =>
      exact compress1LoopL_erase (Portable.compressBlockL .b) (Portable.compressBlock .b) (Portable.compressBlockL_erase .b)
        arrayRefL arrayRef arrayRefL_erase input w c ln fin s
    | Portable =>
      exact compress1LoopL_erase (Portable.compressBlockL .b) (Portable.compressBlock .b) (Portable.compressBlockL_erase .b)
        arrayRefL arrayRef arrayRefL_erase input w c ln fin s
  | s =>
    cases imp with
    | AVX2 =>
      exact compress1LoopL_erase (straight SSse41.compressBlock) SSse41.compressBlock (fun _ _ _ _ _ => erase_pure _) rawRefL rawRef
        rawRefL_erase input w c ln fin s
    | SSE41 =>
      exact compress1LoopL_erase (straight SSse41.compressBlock) SSse41.compressBlock (fun _ _ _ _ _ => erase_pure _) rawRefL rawRef
        rawRefL_erase input w c ln fin s
    | Portable =>
      exact compress1LoopL_erase (Portable.compressBlockL .s) (Portable.compressBlock .s) (Portable.compressBlockL_erase .s)
        arrayRefL arrayRef arrayRefL_erase input w c ln fin s

/-! ## lib.rs -/

theorem setter_runL_erase (p : Params a) (c : Spec.Setter) : (c.runL p).erase = c.run p := by
  cases c with
  | nodeOffset n =>
    cases a
    · rfl
    · simp only [Spec.Setter.runL, Spec.Setter.run, Params.setNodeOffsetL, Params.setNodeOffset, erase_bind, rassertL_erase, erase_pure]
  | _ =>
    simp only [Spec.Setter.runL, Spec.Setter.run, Params.setHashLengthL, Params.setHashLength, Params.setKeyL, Params.setKey,
      Params.setSaltL, Params.setSalt, Params.setPersonalL, Params.setPersonal, Params.setInnerHashLengthL,
      Params.setInnerHashLength, Params.setFanout, Params.setMaxDepth, Params.setMaxLeafLength, Params.setNodeDepth,
      Params.setLastNode, erase_bind, rassertL_erase, copyRangeL_erase, erase_pure]

theorem buildL_erase (p : Params a) (calls : List Spec.Setter) : (p.buildL calls).erase = p.build calls := by
  induction calls generalizing p with
  | nil => rfl
  | cons c cs ih =>
    rw [Params.buildL, erase_bind, setter_runL_erase]
    simp only [ih]
    rfl

theorem withParamsL_erase (p : Params a) : (State.withParamsL p).erase = .ok (State.withParams p) := by
  simp only [State.withParamsL, State.withParams, erase_branch, erase_pure]
  split <;> rfl

theorem fillBufL_erase (s : State a) (x : List Byte) : (s.fillBufL x).erase = s.fillBuf x := by
  simp only [State.fillBufL, State.fillBuf, erase_bind, checkedSubL_erase, minL_erase, ok_bind', sliceToL_erase,
    copyRangeL_erase, addU8L_erase, sliceFromL_erase, erase_pure]

theorem compressBufferIfPossibleL_erase (s : State a) (x : List Byte) :
    (s.compressBufferIfPossibleL x).erase = s.compressBufferIfPossible x := by
  simp only [State.compressBufferIfPossibleL, State.compressBufferIfPossible, erase_branch, erase_bind, fillBufL_erase,
    compress1L_erase, erase_pure]

theorem updateL_erase (s : State a) (x : List Byte) : (s.updateL x).erase = s.update x := by
  simp only [State.updateL, State.update, erase_branch, erase_bind, fillBufL_erase, compressBufferIfPossibleL_erase,
    compress1L_erase, sliceToL_erase, sliceFromL_erase, erase_pure]

theorem finalizeL_erase (s : State a) : s.finalizeL.erase = s.finalize := by
  simp only [State.finalizeL, State.finalize, erase_bind, compress1L_erase, sliceToL_erase, erase_pure]

theorem getCountL_erase (dbg : Bool) (s : State a) : (s.getCountL dbg).erase = s.getCount dbg := by
  simp only [State.getCountL, State.getCount, erase_branch, erase_pure, erase_fault]

theorem hashL_erase (p : Params a) (x : List Byte) : (p.hashL x).erase = p.hash x := by
  simp only [Params.hashL, Params.hash, Params.toState, erase_branch, erase_bind, withParamsL_erase, ok_bind', updateL_erase,
    finalizeL_erase, compress1L_erase, erase_pure]

theorem constantTimeLoopL_erase (i : Nat) (ps : List (Byte × Byte)) (acc : Byte) :
    (constantTimeLoopL i ps acc).erase = .ok (constantTimeLoop i ps acc).1 := by
  induction ps generalizing i acc with
  | nil => rfl
  | cons p ps ih => simp only [constantTimeLoopL, constantTimeLoop, erase_bind, erase_reveal, ok_bind', ih]

theorem constantTimeEqL_erase (x y : List Byte) : (constantTimeEqL x y).erase = .ok (constantTimeEq x y) := by
  simp only [constantTimeEqL, constantTimeEq, constantTimeEqLog, erase_branch, erase_bind, constantTimeLoopL_erase, ok_bind',
    erase_pure]
  split <;> rfl

theorem asBytesL_erase (h : Hash a) : h.asBytesL.erase = h.asBytes := sliceToL_erase _ _

theorem eqHashL_erase (h k : Hash a) : (h.eqHashL k).erase = h.eqHash k := by
  simp only [Hash.eqHashL, Hash.eqHash, erase_bind, asBytesL_erase, constantTimeEqL_erase]

theorem eqSliceL_erase (h : Hash a) (x : List Byte) : (h.eqSliceL x).erase = h.eqSlice x := by
  simp only [Hash.eqSliceL, Hash.eqSlice, erase_bind, asBytesL_erase, constantTimeEqL_erase]

theorem hexAtL_erase (i : Nat) : (Hash.hexAtL i).erase = Hash.hexAt i := by
  simp only [Hash.hexAtL, Hash.hexAt, erase_bind, erase_reveal, ok_bind']
  split <;> rfl

theorem hexPushL_erase (s : List Char) (c : Char) : (Hash.pushL a s c).erase = Hash.bytesToHex.push a s c := by
  simp only [Hash.pushL, Hash.bytesToHex.push, erase_branch, erase_pure, erase_fault]

theorem bytesToHexL_erase (bytes : List Byte) (s : List Char) :
    (Hash.bytesToHexL a bytes s).erase = bytes.foldlM (fun s (b : BitVec 8) => (do
      let c ← Hash.hexAt (b >>> 4).toNat
      let s ← Hash.bytesToHex.push a s c
      let c ← Hash.hexAt (b &&& 0xf).toNat
      Hash.bytesToHex.push a s c : Res (List Char))) s := by
  induction bytes generalizing s with
  | nil => rfl
  | cons b bytes ih =>
    simp only [Hash.bytesToHexL, erase_bind, hexAtL_erase, hexPushL_erase, ih, List.foldlM_cons, bind_assoc]

theorem toHexL_erase (h : Hash a) : h.toHexL.erase = h.toHex := by
  simp only [Hash.toHexL, Hash.toHex, erase_bind, asBytesL_erase, bytesToHexL_erase]
  rfl

/-! ## many.rs -/

theorem revealRounds_erase (rs : List (Fin a.rows)) : (NWay.loopIterL.revealRounds rs).erase = .ok () := by
  induction rs with
  | nil => rfl
  | cons r rs ih => simp only [NWay.loopIterL.revealRounds, erase_bind, erase_reveal, ok_bind', ih]

variable {N : Nat} {R : Type}

theorem loopIterL_erase (o : VImpl a N R) (inputs : Vector (List Byte) N) (minLen : Nat) (fin : NWay.Fin_ a N R) (s : Stride)
    (fuel off : Nat) (h : Vector R 8) (lo hi : R) :
    (NWay.loopIterL o inputs minLen fin s fuel off h lo hi).erase = NWay.loopIter o inputs minLen fin s fuel off h lo hi := by
  induction fuel generalizing off h lo hi with
  | zero => rfl
  | succ fuel ih =>
    rw [NWay.loopIterL, NWay.loopIter, erase_bind]
    simp only [erase_branch, erase_bind, erase_mapVector, rawRefL_erase, erase_pure, revealRounds_erase, ok_bind',
      addUsizeL_erase, ih]

theorem assertJobsL_erase (fin : Bool) (jobs : List (Job a)) :
    (NWay.assertJobsL a fin jobs).erase = jobs.forM fun job => inputDebugAsserts a job.input fin := by
  induction jobs with
  | nil => rfl
  | cons j js ih =>
    rw [NWay.assertJobsL, erase_bind, inputDebugAssertsL_erase]
    simp only [ih]
    rfl

theorem listMinL_erase (l : List Nat) : (NWay.listMinL l).erase = .ok (NWay.listMin l) := by
  induction l with
  | nil => rfl
  | cons x xs ih =>
    rw [NWay.listMinL, erase_bind, ih, ok_bind', NWay.listMin]
    split
    · rename_i h; rw [h]; rfl
    · rename_i y h; rw [h]; simp only [erase_bind, minL_erase, ok_bind', erase_pure]

theorem mapVector_flagWordL {α : Type} (f : α → Bool) (v : Vector α N) :
    (mapVector (fun x => flagWordL a (f x)) v).erase = .ok (v.map fun x => flagWord a (f x)) := by
  rw [erase_mapVector]
  simp only [flagWordL_erase]
  exact Vector.mapM_pure (m := Except Fault) (f := fun x => flagWord a (f x))

theorem compressLoopL_erase (o : VImpl a N R) (jobs : Vector (Job a) N) (fin : Bool) (s : Stride) :
    (NWay.compressLoopL o jobs fin s).erase = NWay.compressLoop o jobs fin s := by
  simp only [NWay.compressLoopL, NWay.compressLoop, erase_bind, assertJobsL_erase, listMinL_erase, ok_bind']
  congr 1
  funext _
  cases NWay.listMin (jobs.toList.map fun job => job.input.length) with
  | none => rfl
  | some n =>
  simp only [erase_pure, ok_bind']
  rw [erase_mapVector]
  simp only [finalBlockL_erase]
  congr 1
  funext fins
  have e2 : ∀ v : Vector Bool N, (mapVector (flagWordL a) v).erase = .ok (v.map (flagWord a)) := fun v => mapVector_flagWordL id v
  have e3 : ∀ v : Vector (List Byte × Nat × Bool) N, (mapVector (fun f => flagWordL a f.2.2) v).erase =
    .ok (v.map fun f => flagWord a f.2.2) := fun v => mapVector_flagWordL (fun f => f.2.2) v
  simp only [erase_branch, erase_bind, e3, e2, ok_bind', erase_pure, loopIterL_erase]
  simp only [erase_mapVector, erase_bind, minL_erase, ok_bind', sliceFromL_erase, erase_pure]
  cases fin <;> simp only [if_true, if_false, Bool.false_eq_true, ok_bind', NWay.flagsVec, Vector.map_map] <;> rfl

theorem compressHiL_erase (imp : Platform) (jobs : Vector (Job a) (hiDegree a)) (fin : Bool) (s : Stride) :
    (compressHiL a imp jobs fin s).erase = compressHi a imp jobs fin s := by
  cases a <;> cases imp <;> first | rfl | exact compressLoopL_erase _ _ _ _

theorem compressLoL_erase (imp : Platform) (jobs : Vector (Job a) (loDegree a)) (fin : Bool) (s : Stride) :
    (compressLoL a imp jobs fin s).erase = compressLo a imp jobs fin s := by
  cases a <;> cases imp <;> first | rfl | exact compressLoopL_erase _ _ _ _

end

namespace Many
variable {a : Alg} {ι E : Type} [DecidableEq ι]

theorem pushL_erase (vec : List (JobRef a ι)) (job : JobRef a ι) : (pushL vec job).erase = push vec job := by
  simp only [pushL, push, erase_bind, erase_reveal, ok_bind', erase_branch, erase_pure, erase_fault]

theorem fillJobsVecL_erase (src : SourceL a ι E) (n : Nat) (mem : ι → E) (queue : List ι) (vec : List (JobRef a ι)) :
    (fillJobsVecL src n mem queue vec).erase = fillJobsVec src.erase n mem queue vec := by
  induction queue generalizing mem vec with
  | nil => rfl
  | cons i queue ih =>
    rw [fillJobsVecL, fillJobsVec, erase_branch]
    refine ite_congr rfl (fun _ => ?_) fun _ => rfl
    rw [erase_bind, erase_reveal, ok_bind', erase_bind]
    show (src.pull i (mem i)).erase >>= _ = (src.pull i (mem i)).erase >>= _
    congr 1
    funext ⟨e, job⟩
    cases job with
    | none => exact ih _ _
    | some job => simp only [erase_bind, pushL_erase, ih]

theorem evictStepL_erase (vec : List (JobRef a ι)) (i : Nat) : (evictStepL vec i).erase = evictStep vec i := by
  simp only [evictStepL, evictStep, erase_bind, rassertL_erase, erase_reveal, ok_bind']
  congr 1
  funext _
  cases vec[i]? with
  | none => rfl
  | some job => simp only [erase_branch, erase_pure]

theorem evictAllL_erase (vec : List (JobRef a ι)) (is : List Nat) : (evictAllL vec is).erase = is.foldlM evictStep vec := by
  induction is generalizing vec with
  | nil => rfl
  | cons i is ih => simp only [evictAllL, erase_bind, evictStepL_erase, ih, List.foldlM_cons]

theorem evictFinishedL_erase (vec : List (JobRef a ι)) (n : Nat) : (evictFinishedL vec n).erase = evictFinished vec n :=
  evictAllL_erase _ _

theorem runWideL_erase (src : SourceL a ι E) (N : Nat) (loopL : Vector (Job a) N → Leaky (Vector (Job a) N))
    (loop : Vector (Job a) N → Res (Vector (Job a) N)) (hl : ∀ j, (loopL j).erase = loop j)
    (mem : ι → E) (vec : List (JobRef a ι)) : (runWideL src N loopL mem vec).erase = runWide src.erase N loop mem vec := by
  rw [runWideL, runWide, erase_bind, erase_reveal, ok_bind']
  split
  · simp only [erase_bind, hl, erase_pure]
  · rfl

theorem levelIterL_erase (src : SourceL a ι E) (N : Nat) (loopL : Vector (Job a) N → Leaky (Vector (Job a) N))
    (loop : Vector (Job a) N → Res (Vector (Job a) N)) (hl : ∀ j, (loopL j).erase = loop j)
    (fuel : Nat) (mem : ι → E) (queue : List ι) (vec : List (JobRef a ι)) :
    (levelIterL src N loopL fuel mem queue vec).erase = levelIter src.erase N loop fuel mem queue vec := by
  induction fuel generalizing mem queue vec with
  | zero => rfl
  | succ fuel ih =>
    rw [levelIterL, levelIter, erase_bind, fillJobsVecL_erase]
    simp only [erase_branch, erase_bind, runWideL_erase src N loopL loop hl, evictFinishedL_erase, ih, erase_pure]

theorem levelL_erase (src : SourceL a ι E) (d N : Nat) (loopL : Vector (Job a) N → Leaky (Vector (Job a) N))
    (loop : Vector (Job a) N → Res (Vector (Job a) N)) (hl : ∀ j, (loopL j).erase = loop j)
    (mem : ι → E) (queue : List ι) (vec : List (JobRef a ι)) :
    (levelL src d N loopL mem queue vec).erase = level src.erase d N loop mem queue vec := by
  simp only [levelL, level, erase_branch, levelIterL_erase src N loopL loop hl, erase_pure]

theorem runOneL_erase (src : SourceL a ι E) (imp : Platform) (fin : Bool) (s : Stride) (mem : ι → E) (job : JobRef a ι) :
    (runOneL src imp fin s mem job).erase = runOne src.erase imp fin s mem job := by
  simp only [runOneL, runOne, erase_bind, compress1L_erase, erase_pure]
  rfl

theorem runVecL_erase (src : SourceL a ι E) (imp : Platform) (fin : Bool) (s : Stride) (mem : ι → E)
    (vec : List (JobRef a ι)) : (runVecL src imp fin s mem vec).erase = vec.foldlM (runOne src.erase imp fin s) mem := by
  induction vec generalizing mem with
  | nil => rfl
  | cons j js ih => simp only [runVecL, erase_bind, erase_reveal, ok_bind', runOneL_erase, ih, List.foldlM_cons]

theorem runQueueL_erase (src : SourceL a ι E) (imp : Platform) (fin : Bool) (s : Stride) (mem : ι → E)
    (queue : List ι) : (runQueueL src imp fin s mem queue).erase = runQueue src.erase imp fin s mem queue := by
  induction queue generalizing mem with
  | nil => rfl
  | cons i queue ih =>
    rw [runQueueL, runQueue, erase_bind, erase_reveal, ok_bind', erase_bind]
    show (src.pull i (mem i)).erase >>= _ = (src.pull i (mem i)).erase >>= _
    congr 1
    funext ⟨e, job⟩
    cases job with
    | none => exact ih _
    | some job => simp only [erase_bind, runOneL_erase, ih]

theorem compressManyL_erase (src : SourceL a ι E) (imp : Platform) (fin : Bool) (s : Stride) (mem : ι → E)
    (queue : List ι) : (compressManyL src imp fin s mem queue).erase = compressMany src.erase imp fin s mem queue := by
  simp only [compressManyL, compressMany, erase_bind,
    levelL_erase src _ _ (fun jobs => compressHiL a imp jobs fin s) (fun jobs => compressHi a imp jobs fin s)
      (fun j => compressHiL_erase imp j fin s),
    levelL_erase src _ _ (fun jobs => compressLoL a imp jobs fin s) (fun jobs => compressLo a imp jobs fin s)
      (fun j => compressLoL_erase imp j fin s), runVecL_erase, runQueueL_erase]

end Many

section
variable {a : Alg}

theorem updateManyPullL_erase {ι : Type} (i : ι) (x : List Byte) (s : State a) :
    (updateManyPullL i x s).erase = updateManyPull i x s := by
  simp only [updateManyPullL, updateManyPull, erase_bind, compressBufferIfPossibleL_erase, erase_branch, checkedSubL_erase,
    sliceToL_erase, sliceFromL_erase, copyRangeL_erase, erase_pure]

theorem updateManyL_erase (pairs : List (State a × List Byte)) : (updateManyL pairs).erase = updateMany pairs := by
  cases pairs with
  | nil => rfl
  | cons first rest =>
    simp only [updateManyL, updateMany, erase_bind, erase_reveal, ok_bind', Many.compressManyL_erase, erase_pure,
      SourceL.erase, updateManyPullL_erase]

theorem newL_erase (p : Params a) (x : List Byte) : (HashManyJob.newL p x).erase = HashManyJob.new p x := by
  simp only [HashManyJob.newL, HashManyJob.new, erase_bind, erase_branch, compress1L_erase, erase_pure]
  cases x.isEmpty <;> rfl

theorem toHashL_erase (dbg : Bool) (j : HashManyJob a) : (j.toHashL dbg).erase = j.toHash dbg := by
  simp only [HashManyJob.toHashL, HashManyJob.toHash, erase_branch, erase_pure, erase_fault]

theorem hashManyPullL_erase {ι : Type} (i : ι) (j : HashManyJob a) : (hashManyPullL i j).erase = hashManyPull i j := by
  simp only [hashManyPullL, hashManyPull, erase_branch, erase_pure]

theorem hashManyL_erase (jobs : List (HashManyJob a)) : (hashManyL jobs).erase = hashMany jobs := by
  cases jobs with
  | nil => rfl
  | cons first rest =>
    simp only [hashManyL, hashMany, erase_bind, erase_reveal, ok_bind', Many.compressManyL_erase, erase_pure, SourceL.erase,
      hashManyPullL_erase]

/-! ## blake2bp.rs and blake2sp.rs -/

theorem compressLeavesL_erase (mkL : Fin (parDegree a) → Leaky (List Byte × Count a × Bool))
    (mk : Fin (parDegree a) → Res (List Byte × Count a × Bool)) (hm : ∀ i, (mkL i).erase = mk i) (imp : Platform) (fin : Bool)
    (leaves : LeafWords a) : (compressLeavesL mkL imp fin leaves).erase = compressLeaves mk imp fin leaves := by
  simp only [compressLeavesL, compressLeaves, erase_bind, Many.compressManyL_erase, erase_pure, SourceL.erase, hm]

theorem finalizeRootWordsL_erase (leaves : LeafWords a) (root : Vector (Word a) 8) (n : BitVec 8) (imp : Platform) :
    (finalizeRootWordsL leaves root n imp).erase = finalizeRootWords leaves root n imp := by
  simp only [finalizeRootWordsL, finalizeRootWords, erase_bind, compress1L_erase, erase_pure]

theorem setHashLengthL_erase (p : Params a) (n : Nat) : (p.setHashLengthL n).erase = p.setHashLength n :=
  setter_runL_erase p (.hashLength n)

theorem setKeyL_erase (p : Params a) (k : List Byte) : (p.setKeyL k).erase = p.setKey k := setter_runL_erase p (.key k)

theorem setNodeOffsetL_erase (p : Params a) (n : BitVec 64) : (p.setNodeOffsetL n).erase = p.setNodeOffset n :=
  setter_runL_erase p (.nodeOffset n)

theorem setInnerHashLengthL_erase (p : Params a) (n : Nat) : (p.setInnerHashLengthL n).erase = p.setInnerHashLength n :=
  setter_runL_erase p (.innerHashLength n)

theorem baseParamsL_erase (p : PParams a) : p.baseParamsL.erase = p.baseParams := by
  simp only [PParams.baseParamsL, PParams.baseParams, erase_bind, setHashLengthL_erase, sliceToL_erase, setKeyL_erase,
    setInnerHashLengthL_erase, Params.setFanout, Params.setMaxDepth, Params.setMaxLeafLength, ok_bind']

theorem leafWordsOfL_erase (p : Params a) (i : Nat) : (PParams.leafWordsOfL p i).erase = PParams.leafWordsOf p i := by
  simp only [PParams.leafWordsOfL, PParams.leafWordsOf, erase_bind, setNodeOffsetL_erase, Params.setNodeDepth, ok_bind', erase_pure]

theorem rootWordsOfL_erase (p : Params a) : (PParams.rootWordsOfL p).erase = PParams.rootWordsOf p := by
  simp only [PParams.rootWordsOfL, PParams.rootWordsOf, erase_bind, setNodeOffsetL_erase, Params.setNodeDepth, ok_bind', erase_pure]

theorem toWordsL_erase (p : PParams a) : p.toWordsL.erase = p.toWords := by
  simp only [PParams.toWordsL, PParams.toWords, erase_bind, baseParamsL_erase, erase_mapVector, leafWordsOfL_erase,
    rootWordsOfL_erase, erase_pure]

theorem psetter_runL_erase (p : PParams a) (c : Spec.PSetter) : (c.runL p).erase = c.run p := by
  cases c <;>
  simp only [Spec.PSetter.runL, Spec.PSetter.run, PParams.setHashLengthL, PParams.setHashLength, PParams.setKeyL, PParams.setKey,
    erase_bind, rassertL_erase, copyRangeL_erase, erase_pure]

theorem pbuildL_erase (p : PParams a) (calls : List Spec.PSetter) : (p.buildL calls).erase = p.build calls := by
  induction calls generalizing p with
  | nil => rfl
  | cons c cs ih =>
    rw [PParams.buildL, erase_bind, psetter_runL_erase]
    simp only [ih]
    rfl

theorem copyAtL_erase (buf : List Byte) (off : Nat) (src : List Byte) : (copyAtL buf off src).erase = copyAt buf off src := by
  simp only [copyAtL, copyAt, erase_branch, copyRangeL_erase, erase_fault]

theorem placeKeysL_erase (p : PParams a) (is : List Nat) (st : List Byte × Nat) :
    (PState.placeKeysL p is st).erase = is.foldlM (fun (st : List Byte × Nat) i => (do
        let keybytes ← sliceTo p.key p.keyLength.toNat
        let buf ← copyAt st.1 (i * a.bb) keybytes
        .ok (buf, a.bb * parDegree a) : Res (List Byte × Nat))) st := by
  induction is generalizing st with
  | nil => rfl
  | cons i is ih =>
    simp only [PState.placeKeysL, erase_bind, sliceToL_erase, copyAtL_erase, ih, List.foldlM_cons, bind_assoc, ok_bind']

theorem pwithParamsL_erase (p : PParams a) : (PState.withParamsL p).erase = PState.withParams p := by
  simp only [PState.withParamsL, PState.withParams, erase_bind, toWordsL_erase, erase_branch, placeKeysL_erase, erase_pure]

theorem pfillBufL_erase (s : PState a) (x : List Byte) : (s.fillBufL x).erase = s.fillBuf x := by
  simp only [PState.fillBufL, PState.fillBuf, erase_bind, checkedSubL_erase, minL_erase, ok_bind', sliceToL_erase, copyAtL_erase,
    addU16L_erase, sliceFromL_erase, erase_pure]

theorem compressToLeavesL_erase (s : PState a) (x : List Byte) : (s.compressToLeavesL x).erase = s.compressToLeaves x := by
  rw [PState.compressToLeavesL, PState.compressToLeaves, erase_bind, compressLeavesL_erase _ (fun i => do
      let inp ← sliceFrom x (i.val * a.bb)
      .ok (inp, s.count, false))]
  · rfl
  · intro i; simp only [erase_bind, sliceFromL_erase, erase_pure]

theorem updateBufferedL_erase (s : PState a) (x : List Byte) : (s.updateBufferedL x).erase = s.updateBuffered x := by
  simp only [PState.updateBufferedL, PState.updateBuffered, erase_branch, erase_bind, pfillBufL_erase, compressToLeavesL_erase,
    sliceToL_erase, sliceFromL_erase, copyRangeL_erase, erase_pure]

theorem updateBulkL_erase (s : PState a) (x : List Byte) : (s.updateBulkL x).erase = s.updateBulk x := by
  simp only [PState.updateBulkL, PState.updateBulk, erase_branch, erase_bind, compressToLeavesL_erase, sliceToL_erase,
    sliceFromL_erase, erase_pure]

theorem pupdateL_erase (s : PState a) (x : List Byte) : (s.updateL x).erase = s.update x := by
  simp only [PState.updateL, PState.update, erase_bind, updateBufferedL_erase, updateBulkL_erase, pfillBufL_erase, rassertL_erase,
    erase_pure]

theorem pfinalizeL_erase (s : PState a) : s.finalizeL.erase = s.finalize := by
  rw [PState.finalizeL, PState.finalize, erase_bind, compressLeavesL_erase _ (fun i => do
      let upTo ← sliceTo s.buf s.bufLen
      let input ← sliceFrom upTo (min (i.val * a.bb) s.bufLen)
      .ok (input, s.count, decide (i.val = parDegree a - 1)))]
  · simp only [finalizeRootWordsL_erase]
  · intro i; simp only [erase_bind, sliceToL_erase, minL_erase, ok_bind', sliceFromL_erase, erase_pure]

theorem pgetCountL_erase (dbg : Bool) (s : PState a) : (s.getCountL dbg).erase = s.getCount dbg := by
  simp only [PState.getCountL, PState.getCount, erase_branch, erase_pure, erase_fault]

theorem phashL_erase (p : PParams a) (x : List Byte) : (p.hashL x).erase = p.hash x := by
  simp only [PParams.hashL, PParams.hash, PParams.toState, erase_branch, erase_bind, pwithParamsL_erase, pupdateL_erase,
    pfinalizeL_erase, toWordsL_erase, finalizeRootWordsL_erase]
  refine ite_congr rfl (fun _ => rfl) fun _ => ?_
  congr 1
  funext ⟨l, r⟩
  rw [compressLeavesL_erase _ (fun i => do
      let inp ← sliceFrom x (min x.length (i.val * a.bb))
      .ok (inp, 0, decide (i.val = parDegree a - 1)))]
  intro i; simp only [erase_bind, minL_erase, ok_bind', sliceFromL_erase, erase_pure]

/-! ## Histories -/

theorem getStateL_erase {S : Type} (ss : List S) (i : Nat) : (getStateL ss i).erase = getState ss i := by
  simp only [getStateL, getState, erase_bind, erase_reveal, ok_bind']
  cases ss[i]? <;> rfl

theorem op_execL_erase (dbg : Bool) (ss : List (State a)) (op : Spec.Op Platform) : (op.execL dbg ss).erase = op.exec dbg ss := by
  cases op <;>
  simp only [Spec.Op.execL, Spec.Op.exec, erase_bind, buildL_erase, withParamsL_erase, ok_bind', erase_pure, getStateL_erase,
    updateL_erase, erase_mapList, updateManyL_erase, finalizeL_erase, asBytesL_erase, getCountL_erase, Params.toState, State.write,
    State.flush, bind_assoc]

theorem execAllL_erase (dbg : Bool) (ss : List (State a)) (ops : List (Spec.Op Platform)) :
    (execAllL dbg ss ops).erase = execAll dbg ss ops := by
  induction ops generalizing ss with
  | nil => rfl
  | cons op ops ih => simp only [execAllL, execAll, erase_bind, op_execL_erase, ih, erase_pure]

theorem pop_execL_erase (dbg : Bool) (ss : List (PState a)) (op : Spec.POp Platform) : (op.execL dbg ss).erase = op.exec dbg ss := by
  cases op <;>
  simp only [Spec.POp.execL, Spec.POp.exec, erase_bind, pbuildL_erase, pwithParamsL_erase, ok_bind', erase_pure, getStateL_erase,
    pupdateL_erase, pfinalizeL_erase, asBytesL_erase, pgetCountL_erase, PParams.toState, PState.write, PState.flush, bind_assoc]

theorem pexecAllL_erase (dbg : Bool) (ss : List (PState a)) (ops : List (Spec.POp Platform)) :
    (pexecAllL dbg ss ops).erase = pexecAll dbg ss ops := by
  induction ops generalizing ss with
  | nil => rfl
  | cons op ops ih => simp only [pexecAllL, pexecAll, erase_bind, pop_execL_erase, ih, erase_pure]

theorem absorbL_erase (s : State a) (pieces : List (List Byte)) :
    (verifyTagL.absorb s pieces).erase = pieces.foldlM State.update s := by
  induction pieces generalizing s with
  | nil => rfl
  | cons x xs ih => simp only [verifyTagL.absorb, erase_bind, updateL_erase, ih, List.foldlM_cons]

end

end Blake2
