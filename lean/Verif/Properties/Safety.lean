import Verif.Properties.Output
import Verif.Properties.Params
/-!
# C22: no panic, no undefined behaviour, termination

A model function of result type `Res` can fail with `panic`, with `ub` (an unchecked read outside a slice) or with `diverge`
(a loop that has not ended within its bound). "Fails" below means any of the three.
-/
namespace Blake2
open Spec

variable {a : Alg}

/-- A well-typed operation that is not one of the documented panics may be performed. -/
theorem Op.valid_of_wellTyped {dbg : Bool} {hs : List Hasher} {op : Op Platform} (h : op.WellTyped hs.length)
    (hp : ¬ op.MayPanic a dbg hs) : op.Valid a dbg hs := by
  cases op <;> try exact h
  case create plat calls =>
    intro x hx
    exact Classical.byContradiction fun hn => hp ⟨x, hx, hn⟩
  case count i =>
    exact ⟨h, fun hd k hk hu => hp ⟨hd, k, hk, hu⟩⟩

/-- A documented panic is a panic. -/
theorem exec_panics {hs : List Hasher} {ss : List (State a)} (r : Rel (HRel a) hs ss) (dbg : Bool) (op : Op Platform)
    (hp : op.MayPanic a dbg hs) : op.exec dbg ss = .error .panic := by
  cases op <;> try exact hp.elim
  case create plat calls =>
    simp only [Op.exec, build_panics _ calls hp _ (rep_new a plat), bind, Except.bind]
  case count i =>
    obtain ⟨hd, k, hk, hu⟩ := hp
    obtain ⟨hi, rfl⟩ := List.getElem?_eq_some_iff.1 hk
    obtain ⟨s, e, _, hr⟩ := r.get hi
    simp only [Op.exec, e, hr.count_exact, if_pos (And.intro hd hu), bind, Except.bind]

theorem execAll_dichotomy {hs : List Hasher} {ss : List (State a)} (r : Rel (HRel a) hs ss) (dbg : Bool)
    (ops : List (Op Platform)) (hw : WellTypedHistory a hs ops) :
    (execAll dbg ss ops = .error .panic ∧
      ∃ pre op post, ops = pre ++ op :: post ∧ op.MayPanic a dbg (history a hs pre)) ∨
    ((∃ ss', execAll dbg ss ops = .ok (ss', answers a hs ops)) ∧
      ∀ pre op post, ops = pre ++ op :: post → ¬ op.MayPanic a dbg (history a hs pre)) := by
  induction ops generalizing hs ss with
  | nil =>
    refine .inr ⟨⟨ss, rfl⟩, fun pre op post h => ?_⟩
    cases pre <;> cases h
  | cons op ops ih =>
    by_cases hp : op.MayPanic a dbg hs
    · exact .inl ⟨by simp only [execAll, exec_panics r dbg op hp, bind, Except.bind], [], op, ops, rfl, hp⟩
    · obtain ⟨s1, e1, r1⟩ := exec_refines r dbg op (Op.valid_of_wellTyped hw.1 hp)
      rcases ih r1 hw.2 with ⟨e, pre, op', post, h1, h2⟩ | ⟨⟨s2, e2⟩, h⟩
      · exact .inl ⟨by simp only [execAll, e1, e, bind, Except.bind], op :: pre, op', post, by rw [h1]; rfl, h2⟩
      · refine .inr ⟨⟨s2, by simp only [execAll, e1, e2, bind, Except.bind, answers]⟩, fun pre op' post h' => ?_⟩
        cases pre with
        | nil => cases h'; exact hp
        | cons q pre => cases h'; exact h pre op' post rfl

/-- C22. A well-typed history of operations on `State`s panics exactly if it contains one of the documented panics, and
otherwise completes, in debug as in release builds. It never reads outside an input and it always terminates. -/
theorem C22_histories (dbg : Bool) (ops : List (Op Platform)) (hw : WellTypedHistory a [] ops) :
    (execAll dbg ([] : List (State a)) ops = .error .panic ∧
      ∃ pre op post, ops = pre ++ op :: post ∧ op.MayPanic a dbg (history a [] pre)) ∨
    ((∃ ss os, execAll dbg ([] : List (State a)) ops = .ok (ss, os)) ∧
      ∀ pre op post, ops = pre ++ op :: post → ¬ op.MayPanic a dbg (history a [] pre)) := by
  rcases execAll_dichotomy (rel_nil (R := HRel a)) dbg ops hw with h | ⟨⟨ss, h⟩, h'⟩
  · exact .inl h
  · exact .inr ⟨⟨ss, _, h⟩, h'⟩

/-- A well-typed history that completes, and one that panics at its second operation. -/
example : WellTypedHistory .b [] sampleHistory := by
  unfold sampleHistory; decide +kernel
example : WellTypedHistory .s [] [.create .AVX2 [], .create (π := Platform) .SSE41 [.key [1, 2], .hashLength 33], .update 0 [1]] ∧
    execAll false ([] : List (State .s)) [.create .AVX2 [], .create .SSE41 [.key [1, 2], .hashLength 33], .update 0 [1]] =
      .error .panic := by
  have hw : WellTypedHistory .s [] [.create .AVX2 [], .create (π := Platform) .SSE41 [.key [1, 2], .hashLength 33], .update 0 [1]] := by
    simp [WellTypedHistory, Op.WellTyped, Op.next]
  refine ⟨hw, ?_⟩
  rcases C22_histories (a := .s) false _ hw with h | ⟨_, h⟩
  · exact h.1
  · exact absurd ⟨.hashLength 33, by simp, by decide⟩ (h [.create .AVX2 []] _ _ rfl)

/-! ## The tree variants -/

theorem POp.valid_of_wellTyped {dbg : Bool} {hs : List PHasher} {op : POp Platform} (h : op.WellTyped hs.length)
    (hp : ¬ op.MayPanic a dbg hs) : op.Valid a dbg hs := by
  cases op <;> try exact h
  case create plat calls =>
    intro x hx
    exact Classical.byContradiction fun hn => hp ⟨x, hx, hn⟩
  case count i =>
    exact ⟨h, fun hd k hk hu => hp ⟨hd, k, hk, hu⟩⟩

theorem pexec_panics {hs : List PHasher} {ss : List (PState a)} (r : Rel (PHRel a) hs ss) (dbg : Bool) (op : POp Platform)
    (hp : op.MayPanic a dbg hs) : op.exec dbg ss = .error .panic := by
  cases op <;> try exact hp.elim
  case create plat calls =>
    simp only [POp.exec, pbuild_panics plat calls hp, bind, Except.bind]
  case count i =>
    obtain ⟨hd, k, hk, hu⟩ := hp
    obtain ⟨hi, rfl⟩ := List.getElem?_eq_some_iff.1 hk
    obtain ⟨s, e, _, hr⟩ := r.get hi
    simp only [POp.exec, e, hr.count_exact, if_pos (And.intro hd hu), bind, Except.bind]

theorem pexecAll_dichotomy {hs : List PHasher} {ss : List (PState a)} (r : Rel (PHRel a) hs ss) (dbg : Bool)
    (ops : List (POp Platform)) (hw : WellTypedPHistory a hs ops) :
    (pexecAll dbg ss ops = .error .panic ∧
      ∃ pre op post, ops = pre ++ op :: post ∧ op.MayPanic a dbg (phistory a hs pre)) ∨
    ((∃ ss', pexecAll dbg ss ops = .ok (ss', panswers a hs ops)) ∧
      ∀ pre op post, ops = pre ++ op :: post → ¬ op.MayPanic a dbg (phistory a hs pre)) := by
  induction ops generalizing hs ss with
  | nil =>
    refine .inr ⟨⟨ss, rfl⟩, fun pre op post h => ?_⟩
    cases pre <;> cases h
  | cons op ops ih =>
    by_cases hp : op.MayPanic a dbg hs
    · exact .inl ⟨by simp only [pexecAll, pexec_panics r dbg op hp, bind, Except.bind], [], op, ops, rfl, hp⟩
    · obtain ⟨s1, e1, r1⟩ := pexec_refines r dbg op (POp.valid_of_wellTyped hw.1 hp)
      rcases ih r1 hw.2 with ⟨e, pre, op', post, h1, h2⟩ | ⟨⟨s2, e2⟩, h⟩
      · exact .inl ⟨by simp only [pexecAll, e1, e, bind, Except.bind], op :: pre, op', post, by rw [h1]; rfl, h2⟩
      · refine .inr ⟨⟨s2, by simp only [pexecAll, e1, e2, bind, Except.bind, panswers]⟩, fun pre op' post h' => ?_⟩
        cases pre with
        | nil => cases h'; exact hp
        | cons q pre => cases h'; exact h pre op' post rfl

/-- C22 for `blake2bp::State` and `blake2sp::State`. -/
theorem C22_tree_histories (dbg : Bool) (ops : List (POp Platform)) (hw : WellTypedPHistory a [] ops) :
    (pexecAll dbg ([] : List (PState a)) ops = .error .panic ∧
      ∃ pre op post, ops = pre ++ op :: post ∧ op.MayPanic a dbg (phistory a [] pre)) ∨
    ((∃ ss os, pexecAll dbg ([] : List (PState a)) ops = .ok (ss, os)) ∧
      ∀ pre op post, ops = pre ++ op :: post → ¬ op.MayPanic a dbg (phistory a [] pre)) := by
  rcases pexecAll_dichotomy (rel_nil (R := PHRel a)) dbg ops hw with h | ⟨⟨ss, h⟩, h'⟩
  · exact .inl h
  · exact .inr ⟨⟨ss, _, h⟩, h'⟩

example : WellTypedPHistory .b [] [.create .AVX2 [.key [7]], .update 0 (List.replicate 2000 3), .clone 0, .update (π := Platform) 1 [5],
    .count 0, .finalize 1] := by
  decide +kernel

/-! ## The rest of the interface -/

/-- C22 for everything that is not an operation on a `State`: one-shot hashing, batches of `HashManyJob`s, and `Hash`.
None of these fails, except that in debug builds `to_hash` panics on an unfinished job and `as_array` on a short hash. -/
theorem C22_other_calls :
    (∀ (plat : Platform) (calls : List Setter), (∀ x ∈ calls, x.InRange a) → ∃ p, (Params.new a plat).build calls = .ok p) ∧
    (∀ (plat : Platform) (calls : List PSetter), (∀ x ∈ calls, x.InRange a) → ∃ p, (PParams.new a plat).build calls = .ok p) ∧
    (∀ (p : Params a) (x : List Byte), Built p → (∃ h, p.hash x = .ok h) ∧ ∃ j, HashManyJob.new p x = .ok j) ∧
    (∀ (plat : Platform) (calls : List PSetter) (p : PParams a) (x : List Byte), (PParams.new a plat).build calls = .ok p →
      ∃ h, p.hash x = .ok h) ∧
    (∀ jobs : List (HashManyJob a), (∀ j ∈ jobs, JobReachable j) → ∃ out, hashMany jobs = .ok out) ∧
    (∀ (dbg : Bool) (j : HashManyJob a), JobReachable j →
      (dbg = true ∧ j.finished = false ∧ j.toHash dbg = .error .panic) ∨
      ((dbg = false ∨ j.finished = true) ∧ ∃ h, j.toHash dbg = .ok h)) ∧
    (∀ (h : Hash a), HashReachable h → (∃ d, h.asBytes = .ok d) ∧ (∃ s, h.toHex = .ok s) ∧ (∃ s, h.debugFmt = .ok s) ∧
      (∀ other, ∃ b, h.eqSlice other = .ok b) ∧ (∀ k, HashReachable k → ∃ b, h.eqHash k = .ok b) ∧
      (∀ dbg, (dbg = true ∧ h.len.toNat < maxOut a ∧ h.asArray dbg = .error .panic) ∨
        ((dbg = false ∨ h.len.toNat = maxOut a) ∧ ∃ arr, h.asArray dbg = .ok arr))) := by
  refine ⟨fun plat calls hr => ?_, fun plat calls hr => pbuild_ok plat calls hr, fun p x hb => ⟨?_, ?_⟩, fun plat calls p x hb => ?_,
    fun jobs hj => ⟨_, hashMany_eq jobs fun j h => (hj j h).count_ok⟩, fun dbg j _ => ?_, fun h hr => ⟨⟨_, hr.asBytes⟩, ?_, ?_, ?_, ?_, ?_⟩⟩
  · obtain ⟨p, e, _⟩ := rep_build (rep_new a plat) calls hr
    exact ⟨p, e⟩
  · obtain ⟨plat, calls, hb⟩ := hb
    obtain ⟨h, d, e, _⟩ := C20_length plat calls p hb x
    exact ⟨h, e⟩
  · obtain ⟨c, hr⟩ := hb.rep
    obtain ⟨j, e, _⟩ := hashManyJob_new hr x
    exact ⟨j, e⟩
  · obtain ⟨h, d, e, _⟩ := C20_tree_length plat calls p hb x
    exact ⟨h, e⟩
  · unfold HashManyJob.toHash
    cases dbg <;> cases hf : j.finished <;> simp
  · obtain ⟨d, _, e, _⟩ := C20_hex h hr
    exact ⟨_, e⟩
  · obtain ⟨d, _, _, _, _, _, e⟩ := C20_hex h hr
    exact ⟨_, e⟩
  · intro other
    obtain ⟨d, _, _, _, _, e⟩ := C20_equality h h hr hr other
    exact ⟨_, e⟩
  · intro k kr
    obtain ⟨d, _, _, _, e, _⟩ := C20_equality h k hr kr []
    exact ⟨_, e⟩
  · intro dbg
    obtain ⟨d, e, h1, h2⟩ := C21_as_array h hr dbg
    obtain ⟨hl, hlo, hhi⟩ := hr.ok
    have hd : d.length = h.len.toNat := by
      rw [hr.asBytes] at e
      cases e
      rw [List.length_take]; omega
    rw [hd] at h1
    have hmo := maxOut_eq a
    by_cases hc : dbg = true ∧ h.len.toNat < maxOut a
    · exact .inl ⟨hc.1, hc.2, h1.2 hc⟩
    · obtain ⟨arr, ea, _⟩ := h2 fun h => hc (h1.1 h)
      refine .inr ⟨?_, arr, ea⟩
      cases dbg
      · exact .inl rfl
      · right
        have : ¬ h.len.toNat < maxOut a := fun h => hc ⟨rfl, h⟩
        omega

/-! ## The unsafe code -/

/-- C22. The loops with unchecked reads. On inputs as `State`, `many` and the tree variants pass them (any bytes when finalizing,
else a positive number of whole blocks), no compression loop of any platform reads outside its input, panics, overflows its
offset or runs forever, whatever the input lengths and the stride. -/
theorem C22_compression_loops (imp : Platform) (fin : Bool) (stride : Stride) :
    (∀ (input : List Byte) (words : Vector (Word a) 8) (count : Count a) (lastNode : Bool),
      (fin = true ∨ (input ≠ [] ∧ input.length % bb a = 0)) →
      ∃ w, compress1 a imp input words count lastNode fin stride = .ok w) ∧
    (∀ jobs : Vector (Job a) (hiDegree a), hiDegree a ≤ implDegree a imp →
      (∀ i : Fin (hiDegree a), (fin = true ∨ ((jobs[i]).input ≠ [] ∧ (jobs[i]).input.length % bb a = 0)) ∧
        (jobs[i]).count.toNat % bb a = 0) →
      ∃ jobs', compressHi a imp jobs fin stride = .ok jobs') ∧
    (∀ jobs : Vector (Job a) (loDegree a), loDegree a ≤ implDegree a imp →
      (∀ i : Fin (loDegree a), (fin = true ∨ ((jobs[i]).input ≠ [] ∧ (jobs[i]).input.length % bb a = 0)) ∧
        (jobs[i]).count.toNat % bb a = 0) →
      ∃ jobs', compressLo a imp jobs fin stride = .ok jobs') := by
  refine ⟨fun input words count ln h => ?_, fun jobs hd hj => ?_, fun jobs hd hj => ?_⟩
  · rw [bb_eq] at h
    exact ⟨_, compress1_eq a imp input words count ln fin stride h⟩
  · obtain ⟨jobs', e, _⟩ := (C23_every_pass_completes_a_job imp fin stride).1 jobs hd hj
    exact ⟨jobs', e⟩
  · obtain ⟨jobs', e, _⟩ := (C23_every_pass_completes_a_job imp fin stride).2 jobs hd hj
    exact ⟨jobs', e⟩

/-- The widest loop, with inputs of four different lengths, none a multiple of the block length. -/
example : ∃ jobs', compressHi .b .AVX2 (Vector.ofFn fun i : Fin 4 =>
    ({ input := List.replicate (1000 * i.val + 5) 7, words := Vector.replicate 8 0, count := 128, lastNode := false } : Job .b))
    true .Serial = .ok jobs' :=
  (C22_compression_loops (a := .b) .AVX2 true .Serial).2.1 _ (by decide) (fun i => ⟨.inl rfl, by revert i; decide +kernel⟩)

end Blake2
