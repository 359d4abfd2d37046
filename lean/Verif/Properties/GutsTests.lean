import Verif.Model.GutsTests
import Verif.Proofs.TraceMany
import Verif.Proofs.TraceErase
import Verif.Properties.Tests
/-!
# The unit tests of the compression loops pass on every case: C54
-/
namespace Blake2
open Spec

variable {a : Alg}

theorem padded_mod (a : Alg) (s : Stride) : s.padded a % a.bb = 0 := by cases a <;> cases s <;> rfl

theorem padFull {n : Nat} {x : List Byte} (h : x.length = n) : Spec.pad n x = x := by
  simp [Spec.pad, h]

/-- `reference_compression` absorbs the input a block at a time. -/
theorem referenceIter_eq (s : Stride) (ln fin : Bool) (input : List Byte) (hok : InputOk a fin input) (fuel offset : Nat)
    (c : Count a) (h : Vector (Word a) 8) (ho : offset = 0 ∨ offset < input.length) (hm : offset % a.bb = 0)
    (hf : input.length - offset + 2 ≤ fuel) :
    referenceIter a input s ln fin fuel offset c h = .ok (absorb a s fin ln h c (input.drop offset)) := by
  have hP := padded_pos a s
  have hbb := bb_le_padded a s
  have hb0 := bb_pos a
  have hPm := padded_mod a s
  induction fuel generalizing offset c h with
  | zero => omega
  | succ fuel ih =>
    have hle : offset ≤ input.length := by omega
    have hl : (input.drop offset).length = input.length - offset := List.length_drop
    rw [referenceIter, if_pos ho]
    simp only [sliceFrom, if_pos hle, ok_bind, sliceTo]
    rw [if_pos (by rw [hl]; omega), ok_bind]
    have htk : (input.drop offset).take (min a.bb (input.length - offset)) = (input.drop offset).take a.bb := by
      rw [← hl]
      exact List.take_eq_take_iff.2 (by omega)
    have htl : ((input.drop offset).take a.bb).length = min a.bb (input.length - offset) := by rw [List.length_take, hl]
    have hpad : Stride.Serial.padded a = a.bb := rfl
    by_cases hlast : offset + s.padded a < input.length
    · have htl' : ((input.drop offset).take a.bb).length = a.bb := by omega
      rw [if_pos hlast, htk, show Portable.compress1Loop a = compress1 a .Portable from by cases a <;> rfl,
        compress1_eq a .Portable _ _ _ _ _ _ (Or.inr ⟨by intro hn; rw [hn] at htl'; simp at htl'; omega, by rw [htl', Nat.mod_self]⟩),
        ok_bind]
      rw [ih _ _ _ (Or.inr hlast) (by rw [Nat.add_mod, hm, hPm]; simp) (by omega)]
      congr 1
      conv => rhs; rw [absorb, if_neg (by omega)]
      rw [List.drop_drop]
      congr 1
      rw [absorb, if_pos (by rw [htl', hpad]; omega), List.take_take, Nat.min_self, htl', Nat.min_self, padFull htl', Bool.false_and]
    · have hok' : InputOk a fin ((input.drop offset).take a.bb) := by
        rcases hok with h1 | ⟨h1, h2⟩
        · exact Or.inl h1
        · have h3 : 0 < input.length := by cases input <;> simp_all
          have h4 : (input.length - offset) % a.bb = 0 := by
            have e1 := Nat.div_add_mod input.length a.bb
            have e2 := Nat.div_add_mod offset a.bb
            rw [show input.length - offset = a.bb * (input.length / a.bb - offset / a.bb) from by rw [Nat.mul_sub]; omega]
            exact Nat.mul_mod_right _ _
          have h5 : a.bb ≤ input.length - offset := Nat.le_of_dvd (by omega) (Nat.dvd_of_mod_eq_zero h4)
          refine Or.inr ⟨?_, by rw [htl, Nat.min_eq_left h5, Nat.mod_self]⟩
          intro hn; rw [hn] at htl; simp at htl; omega
      rw [if_neg hlast, htk, show Portable.compress1Loop a = compress1 a .Portable from by cases a <;> rfl,
        compress1_eq a .Portable _ _ _ _ _ _ hok', ok_bind]
      obtain ⟨fuel, rfl⟩ : ∃ f, fuel = f + 1 := ⟨fuel - 1, by omega⟩
      rw [referenceIter, if_neg (by omega)]
      congr 1
      conv => rhs; rw [absorb, if_pos (by omega)]
      rw [absorb, if_pos (by rw [htl, hpad]; omega), List.take_take, Nat.min_self, htl, hl]
      congr 3
      omega

/-- The words the tests start from. -/
def startWords (a : Alg) (i : Nat) : Vector (Word a) 8 :=
  initH a (configOf a [.nodeOffset (BitVec.ofNat 64 i)])

theorem initialTestWords_eq (plat : Platform) (i : Nat) (hi : i < 2 ^ 48) :
    initialTestWords a plat i = .ok (startWords a i) := by
  obtain ⟨p, e⟩ := C03_nonvacuous (a := a) plat [.nodeOffset (BitVec.ofNat 64 i)] (by
    intro x hx
    simp only [List.mem_singleton] at hx
    subst hx
    show (BitVec.ofNat 64 i).toNat < _
    rw [BitVec.toNat_ofNat, Nat.mod_eq_of_lt (by omega)]
    cases a
    · exact Nat.lt_of_lt_of_le hi (by decide)
    · exact hi)
  unfold initialTestWords
  rw [e, ok_bind, toWords_eq (built_rep e).1]
  rfl

theorem referenceCompression_eq (plat : Platform) (input : List Byte) (s : Stride) (ln fin : Bool) (c : Count a) (i : Nat)
    (hi : i < 2 ^ 48) (hok : InputOk a fin input) :
    referenceCompression a plat input s ln fin c i = .ok (absorb a s fin ln (startWords a i) c input) := by
  unfold referenceCompression
  rw [initialTestWords_eq plat i hi, ok_bind, referenceIter_eq s ln fin input hok _ 0 _ _ (Or.inl rfl) (Nat.zero_mod _) (by omega)]
  rfl

theorem absorbCalls_length (s : Stride) (fin ln ln' : Bool) (c c' : Count a) (x y : List Byte) (h : x.length = y.length) :
    (absorbCalls a s fin ln c x).length = (absorbCalls a s fin ln' c' y).length := by
  have hP := padded_pos a s
  obtain ⟨n, hn⟩ : ∃ n, x.length = n := ⟨_, rfl⟩
  induction n using Nat.strongRecOn generalizing x y c c' with
  | _ n ih =>
    rw [absorbCalls, absorbCalls.eq_def a s fin ln' c' y]
    by_cases hl : x.length ≤ s.padded a
    · rw [if_pos hl, if_pos (by omega)]
      rfl
    · rw [if_neg hl, if_neg (by omega), List.length_cons, List.length_cons,
        ih (n - s.padded a) (by omega) (c + BitVec.ofNat _ a.bb) (c' + BitVec.ofNat _ a.bb) (x.drop (s.padded a)) (y.drop (s.padded a))
          (by simp [h]) (by simp [hn])]

/-- On jobs of equal lengths an N-way loop finishes every one of them. -/
theorem loop_equal {N : Nat} {s : Stride} {fin : Bool} {loopT : Vector (Fin N) N → Vector (Job a) N → Traced a (Fin N) (Vector (Job a) N)}
    {loopN : Vector (Job a) N → Res (Vector (Job a) N)} (hl : ∀ ids jobs, (loopT ids jobs).erase = loopN jobs)
    (h : Many.LoopOkT s fin N loopT) (jobs : Vector (Job a) N) (hok : ∀ i : Fin N, (jobs[i]).Ok fin)
    (hlen : ∀ i j : Fin N, (jobs[i]).input.length = (jobs[j]).input.length) :
    ∃ jobs', loopN jobs = .ok jobs' ∧ ∀ i : Fin N, (jobs'[i]).words = (jobs[i]).target s fin ∧ (jobs'[i]).input = [] := by
  obtain ⟨jobs', n, h1, h2, ⟨i0, h3⟩, h4⟩ := h (Vector.ofFn id) jobs hok
  have hd : ∀ i : Fin N, (jobs'[i]).input = [] := by
    intro i
    refine Classical.byContradiction fun hne => ?_
    have e := (h4 i).2 hne
    have e0 := (h4 i0).1 h3
    have el : ((jobs[i]).calls s fin).length = n := by
      rw [← e0]
      exact absorbCalls_length s fin _ _ _ _ _ _ (hlen i i0)
    rw [List.drop_of_length_le (by omega)] at e
    exact absorbCalls_ne_nil _ _ _ _ _ e
  refine ⟨jobs', ?_, fun i => ⟨(h2 i).done (hd i), hd i⟩⟩
  rw [← hl (Vector.ofFn id) jobs, h1, Traced.erase_ret]

theorem bb_dvd2 (a : Alg) : a.bb ∣ 2 ^ (2 * a.w) := Nat.dvd_trans (bb_dvd a) (Nat.pow_dvd_pow _ (by omega))

/-- A case of the tests: `exercise_cases` skips the others. -/
def ValidCase (a : Alg) (length : Nat) (finalize : Bool) : Prop := finalize = true ∨ (length ≠ 0 ∧ length % a.bb = 0)

theorem validCase_input {length : Nat} {fin : Bool} {input : List Byte} (hl : input.length = length) (h : ValidCase a length fin) :
    InputOk a fin input := by
  rcases h with h | ⟨h1, h2⟩
  · exact Or.inl h
  · refine Or.inr ⟨?_, by rw [hl]; exact h2⟩
    rintro rfl
    exact h1 hl.symm

theorem exerciseLoop_ok {N : Nat} (plat : Platform) (hN : N ≤ 8)
    {loopN : Vector (Job a) N → Bool → Stride → Res (Vector (Job a) N)}
    {loopT : Bool → Stride → Vector (Fin N) N → Vector (Job a) N → Traced a (Fin N) (Vector (Job a) N)}
    (hl : ∀ fin s ids jobs, (loopT fin s ids jobs).erase = loopN jobs fin s)
    (hT : ∀ fin s, Many.LoopOkT s fin N (loopT fin s))
    (buf : List Byte) (s : Stride) (length : Nat) (ln fin : Bool) (count : Count a) (hb : length + N ≤ buf.length + 1)
    (hv : ValidCase a length fin) (hc : count.toNat % a.bb = 0) :
    exerciseLoop a plat N loopN buf s length ln fin count = .ok () := by
  let msg : Nat → List Byte := fun i => (buf.drop i).take length
  let cnt : Nat → Count a := fun i => count + BitVec.ofNat _ (i * a.bb)
  let job : Fin N → Job a := fun i => { input := msg i, words := startWords a i, count := cnt i, lastNode := ln }
  have hmsg : ∀ i : Fin N, (msg i).length = length := by
    intro i
    show ((buf.drop i).take length).length = _
    rw [List.length_take, List.length_drop]
    have := i.isLt
    omega
  have hs : ∀ i : Fin N, sliceFrom buf i = .ok (buf.drop i) ∧ sliceTo (buf.drop i) length = .ok (msg i) := by
    intro i
    have := i.isLt
    refine ⟨by rw [sliceFrom, if_pos (by omega)], by rw [sliceTo, if_pos (by rw [List.length_drop]; omega)]⟩
  have hi48 : ∀ i : Fin N, i.val < 2 ^ 48 := fun i => by have := i.isLt; omega
  have hI : ∀ i : Fin N, InputOk a fin (msg i) := fun i => validCase_input (hmsg i) hv
  unfold exerciseLoop
  rw [vector_mapM_ok _ (fun i : Fin N => absorb a s fin ln (startWords a i) (cnt i) (msg i)) _ (by
    intro i _
    unfold testReference
    rw [(hs i).1, ok_bind, (hs i).2, ok_bind]
    exact referenceCompression_eq plat (msg i) s ln fin (cnt i) i (hi48 i) (hI i)), ok_bind]
  rw [vector_mapM_ok _ job _ (by
    intro i _
    unfold testJob
    rw [initialTestWords_eq plat i (hi48 i), ok_bind, (hs i).1, ok_bind, (hs i).2, ok_bind]), ok_bind]
  obtain ⟨jobs', e, hw⟩ := loop_equal (hl fin s) (hT fin s) ((Vector.ofFn (n := N) fun i => i).map job) (by
      intro i
      simp only [Fin.getElem_fin, Vector.getElem_map, Vector.getElem_ofFn]
      refine ⟨hI i, ?_⟩
      show (count + BitVec.ofNat _ (i.val * a.bb)).toNat % a.bb = 0
      rw [BitVec.toNat_add, BitVec.toNat_ofNat, Nat.mod_mod_of_dvd _ (bb_dvd2 a), Nat.add_mod,
        Nat.mod_mod_of_dvd _ (bb_dvd2 a), hc, Nat.mul_mod_left]
      exact Nat.zero_mod _) (by
      intro i j
      simp only [Fin.getElem_fin, Vector.getElem_map, Vector.getElem_ofFn]
      exact (hmsg i).trans (hmsg j).symm)
  rw [e, ok_bind]
  apply forM_ok
  intro i _
  rw [(hw i).1]
  simp only [Fin.getElem_fin, Vector.getElem_map, Vector.getElem_ofFn]
  show assertThat (_ == absorb a s fin ln (startWords a i) (cnt i) (msg i)) = _
  rw [beq_self_eq_true]
  rfl

/-- C54, `exercise_compress1_loop`. On every buffer and every valid case, every implementation of the one-input loop gives what the
portable implementation gives one block at a time, whatever the counter. -/
theorem C54_exercise_compress1 (plat imp : Platform) (input : List Byte) (stride : Stride) (length : Nat) (lastNode finalize : Bool)
    (count : Count a) (hb : length ≤ input.length) (hv : finalize = true ∨ (length ≠ 0 ∧ length % a.bb = 0)) :
    exerciseCompress1 a plat imp input stride length lastNode finalize count = .ok () := by
  have hs : sliceTo input length = .ok (input.take length) := by rw [sliceTo, if_pos hb]
  have hI : InputOk a finalize (input.take length) := validCase_input (by rw [List.length_take]; omega) hv
  unfold exerciseCompress1 exerciseCompress1Of
  rw [hs, ok_bind, referenceCompression_eq plat _ _ _ _ _ 0 (by omega) hI, ok_bind, initialTestWords_eq plat 0 (by omega), ok_bind,
    ok_bind, compress1_eq a imp _ _ _ _ _ _ hI, ok_bind, beq_self_eq_true]
  rfl

/-- C54, the tests of the N-way loops. On every buffer long enough and every valid case, on every implementation that has the loop, each
lane comes to what the portable implementation gives it alone, one block at a time, for every counter that is a whole number of
blocks. -/
theorem C54_exercise_loops (plat imp : Platform) (input : List Byte) (stride : Stride) (length : Nat) (lastNode finalize : Bool)
    (count : Count a) (hv : finalize = true ∨ (length ≠ 0 ∧ length % a.bb = 0)) (hc : count.toNat % a.bb = 0) :
    (imp ≠ .Portable → length + loDegree a ≤ input.length + 1 →
      exerciseLo a plat imp input stride length lastNode finalize count = .ok ()) ∧
    (imp = .AVX2 → length + hiDegree a ≤ input.length + 1 →
      exerciseHi a plat imp input stride length lastNode finalize count = .ok ()) := by
  refine ⟨fun hi hb => ?_, fun hi hb => ?_⟩
  · refine exerciseLoop_ok plat (by cases a <;> decide) (loopT := fun fin s ids jobs => compressLoT a imp ids jobs fin s)
      (fun fin s ids jobs => compressLoT_erase imp ids jobs fin s)
      (fun fin s => compressLoT_ok a imp s fin ?_) input stride length lastNode finalize count hb hv hc
    cases a <;> cases imp <;> first | exact absurd rfl hi | decide
  · refine exerciseLoop_ok plat (by cases a <;> decide) (loopT := fun fin s ids jobs => compressHiT a imp ids jobs fin s)
      (fun fin s ids jobs => compressHiT_erase imp ids jobs fin s)
      (fun fin s => compressHiT_ok a imp s fin ?_) input stride length lastNode finalize count hb hv hc
    subst hi
    cases a <;> decide

theorem paintIter_ok (fuel offset : Nat) (counter : BitVec 32) (buf : List Byte) (hf : buf.length - offset < fuel)
    (hc : counter.toNat + (buf.length - offset) < 2 ^ 32 - 1) :
    ∃ out, paintIter fuel offset counter buf = .ok out ∧ out.length = buf.length := by
  induction fuel generalizing offset counter buf with
  | zero => omega
  | succ fuel ih =>
    rw [paintIter]
    by_cases h : offset < buf.length
    · rw [if_pos h]
      have h4 : (toLE 4 counter).length = 4 := by simp [toLE]
      simp only [h4]
      obtain ⟨take, ht⟩ : ∃ t, t = min 4 (buf.length - offset) := ⟨_, rfl⟩
      rw [← ht, sliceTo, if_pos (by omega), ok_bind, copyRange,
        if_pos ⟨by omega, by omega, by rw [List.length_take, h4]; omega⟩, ok_bind, if_pos (by omega)]
      have hlen : (buf.take offset ++ (toLE 4 counter).take take ++ buf.drop (offset + take)).length = buf.length := by
        simp only [List.length_append, List.length_take, List.length_drop, h4]
        omega
      have hc1 : (counter + 1).toNat = counter.toNat + 1 := by
        rw [BitVec.toNat_add, Nat.mod_eq_of_lt (by simp; omega)]
        rfl
      obtain ⟨out, e, hl⟩ := ih (offset + take) (counter + 1) _ (by rw [hlen]; omega) (by rw [hlen, hc1]; omega)
      exact ⟨out, e, hl.trans hlen⟩
    · rw [if_neg h]
      exact ⟨buf, rfl, rfl⟩

theorem exerciseCases_ok (a : Alg) : ∀ c ∈ exerciseCases a,
    c.2.1 + 8 ≤ 100 * a.bb + 1 ∧ (c.2.2.2.1 = true ∨ (c.2.1 ≠ 0 ∧ c.2.1 % a.bb = 0)) ∧ c.2.2.2.2.toNat % a.bb = 0 := by
  cases a <;> decide +kernel

theorem exerciseAll_ok {closure : List Byte → Stride → Nat → Bool → Bool → Count a → Res Unit}
    (h : ∀ input stride length ln fin count, length + 8 ≤ input.length + 1 → (fin = true ∨ (length ≠ 0 ∧ length % a.bb = 0)) →
      count.toNat % a.bb = 0 → closure input stride length ln fin count = .ok ()) : exerciseAll a closure = .ok () := by
  obtain ⟨out, e, hl⟩ := paintIter_ok ((List.replicate (100 * a.bb) (0 : Byte)).length + 1) 0 1 (List.replicate (100 * a.bb) 0) (by omega)
    (by rw [List.length_replicate]; cases a <;> decide)
  unfold exerciseAll paintTestInput
  rw [e, ok_bind]
  apply forM_ok
  intro c hcm
  obtain ⟨h1, h2, h3⟩ := exerciseCases_ok a c hcm
  exact h _ _ _ _ _ _ (by rw [hl, List.length_replicate]; exact h1) h2 h3

/-- C54, the loop tests as they stand, with their own table of cases and painted buffer: they pass on every machine. -/
theorem C54_loop_tests (a : Alg) (e : Machine) : testLoops a e = .ok () := by
  have h8 : loDegree a ≤ 8 ∧ hiDegree a ≤ 8 := by cases a <;> decide
  have h1 : ∀ imp, exerciseAll a (exerciseCompress1 a (detect e) imp) = .ok () := fun imp =>
    exerciseAll_ok fun input s n ln fin c hb hv _ => C54_exercise_compress1 _ imp input s n ln fin c (by omega) hv
  have h2 : ∀ imp, imp ≠ .Portable → exerciseAll a (exerciseLo a (detect e) imp) = .ok () := fun imp hi =>
    exerciseAll_ok fun input s n ln fin c hb hv hc => (C54_exercise_loops _ imp input s n ln fin c hv hc).1 hi (by omega)
  have h3 : exerciseAll a (exerciseHi a (detect e) .AVX2) = .ok () :=
    exerciseAll_ok fun input s n ln fin c hb hv hc => (C54_exercise_loops _ .AVX2 input s n ln fin c hv hc).2 rfl (by omega)
  have hs : sse41IfSupported e = none ∨ sse41IfSupported e = some .SSE41 := by
    unfold sse41IfSupported; split <;> try split
    all_goals simp
  have ha : avx2IfSupported e = none ∨ avx2IfSupported e = some .AVX2 := by
    unfold avx2IfSupported; split <;> try split
    all_goals simp
  unfold testLoops
  rw [h1, ok_bind]
  split
  · rcases hs with hs | hs <;> rcases ha with ha | ha <;>
      simp only [hs, ha, ok_bind, h1, h2 .SSE41 (by decide), h2 .AVX2 (by decide), h3]
  · rfl

/-- C54, `test_detection` and `test_degree`. They pass on every machine on which the program may be run at all (the CPU has the features
the program was compiled for) and on which AVX2 implies SSE4.1. -/
theorem C54_detection (a : Alg) (e : Machine) (h1 : e.buildSse41 = true → e.cpuSse41 = true) (h2 : e.buildAvx2 = true → e.cpuAvx2 = true)
    (h3 : e.cpuAvx2 = true → e.cpuSse41 = true) : testDetection e = .ok () ∧ testDegree a e = .ok () := by
  obtain ⟨x, b1, b2, st, c1, c2⟩ := e
  cases a <;> cases x <;> cases b1 <;> cases b2 <;> cases st <;> cases c1 <;> cases c2 <;>
    first
    | exact ⟨rfl, rfl⟩
    | exact absurd (h1 rfl) (by decide)
    | exact absurd (h2 rfl) (by decide)
    | exact absurd (h3 rfl) (by decide)

/-- The hypotheses are met: on an AVX2 machine, and a case with a counter about to wrap. -/
example : testDetection ⟨true, false, false, true, true, true⟩ = .ok () ∧ testDegree .s ⟨true, false, false, true, true, true⟩ = .ok () :=
  C54_detection .s ⟨true, false, false, true, true, true⟩ (by decide) (by decide) (by decide)

/-- The hypothesis that AVX2 implies SSE4.1 is needed. -/
example : testDetection ⟨true, false, false, true, false, true⟩ ≠ .ok () := nofun

example : exerciseHi .b .AVX2 .AVX2 (List.replicate 1000 7) .Parallel 700 true true (BitVec.ofNat 128 (2 ^ 128 - 128)) = .ok () :=
  (C54_exercise_loops .AVX2 .AVX2 _ .Parallel 700 true true _ (Or.inl rfl) (by decide)).2 rfl (by rw [List.length_replicate]; decide)

end Blake2
