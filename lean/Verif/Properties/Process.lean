import Verif.Model.Process
import Verif.Properties.Cli
/-! # The command line tool as a process: C55 -/
namespace Blake2
open Spec Cli

/-! ## Helpers -/

theorem delivered_prefix (sink : Nat → Line → Bool) (n : Nat) (ls : List Line) : delivered sink n ls <+: ls := by
  induction ls generalizing n with
  | nil => exact List.prefix_refl _
  | cons l ls ih =>
    rw [delivered]
    split
    · exact List.cons_prefix_cons.2 ⟨rfl, ih _⟩
    · exact List.nil_prefix

theorem linesUpTo_length (w : World) (o : Opt) (fs : List (String × OsFile)) : (o.linesUpTo w fs).length ≤ fs.length := by
  induction fs with
  | nil => exact Nat.le_refl _
  | cons f fs ih =>
    obtain ⟨path, f⟩ := f
    rw [Opt.linesUpTo]
    split
    · exact Nat.zero_le _
    · exact Nat.succ_le_succ ih

/-- At any time the number of files turned to is the number of lines delivered, or one more. -/
def InStep (es : List Effect) : Prop :=
  ∀ pre, pre <+: es → (printed pre).length ≤ (opened pre).length ∧ (opened pre).length ≤ (printed pre).length + 1

theorem inStep_nil : InStep [] := by
  intro pre h
  rw [List.prefix_nil.1 h]
  simp [printed, opened]

theorem inStep_open (path : String) : InStep [.opens path] := by
  intro pre h
  rcases List.prefix_cons_iff.1 h with rfl | ⟨t, rfl, ht⟩
  · simp [printed, opened]
  · rw [List.prefix_nil.1 ht]
    simp [printed, opened]

theorem inStep_cons (path : String) (l : Line) {es : List Effect} (h : InStep es) : InStep (.opens path :: .prints l :: es) := by
  intro pre hp
  rcases List.prefix_cons_iff.1 hp with rfl | ⟨t, rfl, ht⟩
  · simp [printed, opened]
  · rcases List.prefix_cons_iff.1 ht with rfl | ⟨t', rfl, ht'⟩
    · simp [printed, opened]
    · have := h t' ht'
      show (l :: printed t').length ≤ (path :: opened t').length ∧ (path :: opened t').length ≤ (l :: printed t').length + 1
      simp only [List.length_cons]
      omega

theorem fileLoopRun_eq {o : Opt} {p : Bin.Params} (hp : Bin.PGood o p) (w : World) (sink : Nat → Line → Bool) (n : Nat)
    (failed : Bool) (fs : List (String × OsFile)) (hf : ∀ f ∈ fs, ReadsFit f.2.reads) :
    printed (Bin.fileLoopRun w o p sink n failed fs).effects = delivered sink n (o.linesUpTo w fs) ∧
    opened (Bin.fileLoopRun w o p sink n failed fs).effects =
      (fs.map Prod.fst).take ((delivered sink n (o.linesUpTo w fs)).length + 1) ∧
    (Bin.fileLoopRun w o p sink n failed fs).ending =
      (if (delivered sink n (o.linesUpTo w fs)).length < (o.linesUpTo w fs).length then .exited 101
      else if (o.linesUpTo w fs).length < fs.length then .hung
      else .exited (if failed || (o.linesUpTo w fs).any Line.isErr then 1 else 0)) ∧
    InStep (Bin.fileLoopRun w o p sink n failed fs).effects := by
  induction fs generalizing n failed with
  | nil => exact ⟨rfl, rfl, by simp [Bin.fileLoopRun, Opt.linesUpTo, delivered], inStep_nil⟩
  | cons f fs ih =>
    have hh := Bin.hashFile_good hp w f.2 (hf f (by simp))
    have ih := fun n failed => ih n failed fun f hm => hf f (by simp [hm])
    obtain ⟨path, f⟩ := f
    simp only at hh
    rw [Opt.linesUpTo]
    cases hc : f.content w o.mmap with
    | none =>
      rw [hc] at hh
      simp only [Bin.fileLoopRun, hh, Bin.endingOf, delivered, printed, opened]
      exact ⟨rfl, rfl, by simp, inStep_open path⟩
    | some r =>
      rw [hc] at hh
      have key : ∀ failed', failed' = (failed || (o.line path r).isErr) →
          Bin.fileLoopRun w o p sink n failed ((path, f) :: fs) =
            (if sink n (o.line path r) then
              ⟨.opens path :: .prints (o.line path r) :: (Bin.fileLoopRun w o p sink (n + 1) failed' fs).effects,
                (Bin.fileLoopRun w o p sink (n + 1) failed' fs).ending⟩
            else ⟨[.opens path], .exited 101⟩) := by
        rintro _ rfl
        cases r with
        | error m =>
          simp only at hh
          simp only [Bin.fileLoopRun, hh, Bin.endingOf, Opt.line, Line.isErr, Bool.or_true]
        | ok d =>
          simp only at hh
          by_cases hl : o.inputs.length > 1
          · simp only [Bin.fileLoopRun, hh, Bin.endingOf, Opt.line, if_pos hl, Line.isErr, Bool.or_false]
          · simp only [Bin.fileLoopRun, hh, Bin.endingOf, Opt.line, if_neg hl, Line.isErr, Bool.or_false]
      rw [key _ rfl]
      obtain ⟨h1, h2, h3, h4⟩ := ih (n + 1) (failed || (o.line path r).isErr)
      simp only [delivered]
      by_cases hs : sink n (o.line path r) = true
      · rw [if_pos hs, if_pos hs]
        refine ⟨?_, ?_, ?_, inStep_cons _ _ h4⟩
        · show _ :: printed _ = _
          rw [h1]
        · show path :: opened (Bin.fileLoopRun w o p sink (n + 1) (failed || (o.line path r).isErr) fs).effects = _
          rw [h2]
          rfl
        · simp only [h3, List.length_cons, List.any_cons, Bool.or_assoc, Nat.add_lt_add_iff_right]
          exact ite_congr rfl (fun _ => rfl) fun _ => ite_congr rfl (fun _ => rfl) fun _ => rfl
      · rw [if_neg hs, if_neg hs]
        exact ⟨rfl, rfl, by simp, inStep_open path⟩

/-! ## C55 -/

/-- C55. With input files, whatever the streams accept, whether or not all inputs come to an end, and whenever the process is
stopped: the lines it has delivered are the right ones, from the first on without a gap, and a file is not even opened before
the line for the one before it has been delivered. If a line is refused the status is 101; the tool waits forever only for an
input that has no end; and otherwise every line has been delivered and the status tells whether one of them was an error. -/
theorem C55_files (e : Machine) (w : World) (o : Opt) (ho : o.problem w = none) (hi : o.inputs ≠ []) (stdin : List ReadResult)
    (files : List OsFile) (hl : files.length = o.inputs.length) (hf : ∀ f ∈ files, ReadsFit f.reads)
    (sink : Nat → Line → Bool) (run : Run) (hrun : run = Bin.mainRun e w o stdin files sink)
    (lines : List Line) (hlines : lines = o.linesUpTo w (o.inputs.zip files)) :
    (∀ es, es <+: run.effects → printed es <+: delivered sink 0 lines ∧ opened es <+: o.inputs ∧
      (printed es).length ≤ (opened es).length ∧ (opened es).length ≤ (printed es).length + 1) ∧
    printed run.effects = delivered sink 0 lines ∧
    run.ending =
      (if (delivered sink 0 lines).length < lines.length then .exited 101
      else if lines.length < o.inputs.length then .hung
      else .exited (statusOf lines)) := by
  obtain ⟨p, e1, hp⟩ := makeParams_ok e w o ho
  have hz : (o.inputs.zip files).map Prod.fst = o.inputs := List.map_fst_zip (by omega)
  have hzl : (o.inputs.zip files).length = o.inputs.length := by rw [List.length_zip]; omega
  have hr : run = Bin.fileLoopRun w o p sink 0 false (o.inputs.zip files) := by
    rw [hrun, Bin.mainRun, e1]
    simp only [List.isEmpty_iff]
    rw [if_neg hi]
  obtain ⟨h1, h2, h3, h4⟩ := fileLoopRun_eq hp w sink 0 false (o.inputs.zip files)
    fun f hm => hf f.2 (List.of_mem_zip hm).2
  rw [← hr, ← hlines] at h1 h2 h3
  rw [← hr] at h4
  refine ⟨fun es hes => ⟨?_, ?_, h4 es hes⟩, h1, ?_⟩
  · rw [← h1]; exact hes.filterMap _
  · have : opened es <+: opened run.effects := hes.filterMap _
    rw [h2, hz] at this
    exact this.trans (List.take_prefix _ _)
  · rw [h3, hzl]
    simp only [Bool.false_or, statusOf]

/-- C55. The same for standard input: one line or none. -/
theorem C55_stdin (e : Machine) (w : World) (o : Opt) (ho : o.problem w = none) (hi : o.inputs = []) (hm : o.mmap = false)
    (stdin : List ReadResult) (hf : ReadsFit stdin) (files : List OsFile) (sink : Nat → Line → Bool) :
    Bin.mainRun e w o stdin files sink =
      match readOutcome stdin with
      | none => ⟨[], .hung⟩
      | some r => if sink 0 (o.stdinLine r) then ⟨[.prints (o.stdinLine r)], .exited (statusOf [o.stdinLine r])⟩
        else ⟨[], .exited 101⟩ := by
  obtain ⟨p, e1, hp⟩ := makeParams_ok e w o ho
  have := Bin.hashStdin_good hp stdin hf
  rw [hm] at this
  simp only [Bool.false_eq_true, if_false] at this
  rw [Bin.mainRun, e1]
  simp only [hi, List.isEmpty_nil, if_true]
  rw [this]
  cases readOutcome stdin with
  | none => rfl
  | some r =>
    cases r with
    | error m => rfl
    | ok d => rfl

/-- C55. For any command line and any behaviour of the operating system and the streams: if the process ends with status 0, all
inputs have been read to their ends without an error, and exactly the digests of their contents have been delivered. -/
theorem C55_status_zero (e : Machine) (w : World) (o : Opt) (stdin : List ReadResult) (files : List OsFile)
    (hl : files.length = o.inputs.length) (hs : ReadsFit stdin) (hf : ∀ f ∈ files, ReadsFit f.reads)
    (sink : Nat → Line → Bool) (run : Run) (hrun : run = Bin.mainRun e w o stdin files sink) (h0 : run.ending = .exited 0) :
    o.problem w = none ∧
    (o.inputs = [] → ∃ d, readOutcome stdin = some (.ok d) ∧
      printed run.effects = [.out (String.ofList (hexOf (o.digest d)))]) ∧
    (o.inputs ≠ [] → ∃ ds : List (List Byte), files.map (OsFile.content w o.mmap) = ds.map (fun d => some (.ok d)) ∧
      printed run.effects = List.zipWith (fun path d => o.line path (.ok d)) o.inputs ds) := by
  cases hp : o.problem w with
  | some pr =>
    exfalso
    have := Bin.makeParams_step e w o
    rw [hp] at this
    rw [hrun, Bin.mainRun] at h0
    cases pr with
    | message m =>
      simp only [Bin.Step] at this
      rw [this] at h0
      change (if sink 0 (.err ("blake2: " ++ m)) = true then (⟨[.prints (.err ("blake2: " ++ m))], .exited 1⟩ : Run)
        else ⟨[], .exited 101⟩).ending = _ at h0
      split at h0 <;> cases h0
    | panic =>
      simp only [Bin.Step] at this
      rw [this] at h0
      cases h0
  | none =>
    refine ⟨rfl, fun hi => ?_, fun hi => ?_⟩
    · cases hm : o.mmap with
      | false =>
        have := C55_stdin e w o hp hi hm stdin hs files sink
        rw [← hrun] at this
        rw [this] at h0 ⊢
        cases hr : readOutcome stdin with
        | none => rw [hr] at h0; cases h0
        | some r =>
          rw [hr] at h0
          simp only at h0 ⊢
          by_cases hk : sink 0 (o.stdinLine r) = true
          · rw [if_pos hk] at h0 ⊢
            cases r with
            | error m => cases h0
            | ok d => exact ⟨d, rfl, rfl⟩
          · rw [if_neg hk] at h0; cases h0
      | true =>
        exfalso
        obtain ⟨p, e1, hp'⟩ := makeParams_ok e w o hp
        have := Bin.hashStdin_good hp' stdin hs
        rw [hm] at this
        simp only [if_true] at this
        rw [hrun, Bin.mainRun, e1] at h0
        simp only [hi, List.isEmpty_nil, if_true, this] at h0
        split at h0 <;> cases h0
    · obtain ⟨_, h1, h2⟩ := C55_files e w o hp hi stdin files hl hf sink run hrun _ rfl
      rw [h0] at h2
      by_cases hd : (delivered sink 0 (o.linesUpTo w (o.inputs.zip files))).length < (o.linesUpTo w (o.inputs.zip files)).length
      · rw [if_pos hd] at h2; cases h2
      rw [if_neg hd] at h2
      by_cases hd' : (o.linesUpTo w (o.inputs.zip files)).length < o.inputs.length
      · rw [if_pos hd'] at h2; cases h2
      rw [if_neg hd'] at h2
      have hst : statusOf (o.linesUpTo w (o.inputs.zip files)) = 0 := (Ending.exited.inj h2).symm
      have hall : delivered sink 0 (o.linesUpTo w (o.inputs.zip files)) = o.linesUpTo w (o.inputs.zip files) :=
        (delivered_prefix sink 0 _).eq_of_length_le (by omega)
      rw [h1, hall]
      have key : ∀ (ps : List String) (fs : List OsFile), fs.length = ps.length → ps.length ≤ (o.linesUpTo w (ps.zip fs)).length →
          (o.linesUpTo w (ps.zip fs)).any Line.isErr = false →
          ∃ ds : List (List Byte), fs.map (OsFile.content w o.mmap) = ds.map (fun d => some (.ok d)) ∧
            o.linesUpTo w (ps.zip fs) = List.zipWith (fun path d => o.line path (.ok d)) ps ds := by
        intro ps
        induction ps with
        | nil => intro fs hl _ _; exact ⟨[], by rw [List.eq_nil_of_length_eq_zero hl]; rfl, rfl⟩
        | cons path ps ih =>
          intro fs hl hle hne
          cases fs with
          | nil => cases hl
          | cons f fs =>
            rw [List.zip_cons_cons, Opt.linesUpTo] at hle hne ⊢
            cases hc : f.content w o.mmap with
            | none => rw [hc] at hle; simp at hle
            | some r =>
              rw [hc] at hle hne
              simp only [List.length_cons, Nat.add_le_add_iff_right, List.any_cons, Bool.or_eq_false_iff] at hle hne
              obtain ⟨ds, q1, q2⟩ := ih fs (by simpa using hl) hle hne.2
              cases r with
              | error m => cases hne.1
              | ok d =>
                exact ⟨d :: ds, by rw [List.map_cons, List.map_cons, hc, q1], by simp only [q2, List.zipWith_cons_cons]⟩
      refine key o.inputs files hl (by omega) ?_
      unfold statusOf at hst
      split at hst
      · cases hst
      · exact Bool.eq_false_iff.2 ‹_›

/-- C55. If nothing is refused, this is the tool of C25, C26 and C27. -/
theorem C55_undisturbed (e : Machine) (w : World) (o : Opt) (stdin : List ReadResult) (files : List OsFile) :
    (∀ out, Bin.main e w o stdin files = .ok out →
      printed (Bin.mainRun e w o stdin files fun _ _ => true).effects = out.lines ∧
      (Bin.mainRun e w o stdin files fun _ _ => true).ending = .exited out.status) ∧
    (∀ fault, Bin.main e w o stdin files = .error fault →
      (Bin.mainRun e w o stdin files fun _ _ => true).ending =
        match fault with
        | .panic => .exited 101
        | .ub => .undefined
        | .diverge => .hung) := by
  have hend : ∀ fault : Fault, Bin.endingOf fault = (match fault with
        | .panic => .exited 101
        | .ub => .undefined
        | .diverge => .hung : Ending) := by intro f; cases f <;> rfl
  have loop : ∀ (p : Bin.Params) (fs : List (String × OsFile)) (n : Nat) (failed : Bool),
      (∀ ls b, Bin.fileLoop w o p fs = .ok (ls, b) →
        printed (Bin.fileLoopRun w o p (fun _ _ => true) n failed fs).effects = ls ∧
        (Bin.fileLoopRun w o p (fun _ _ => true) n failed fs).ending = .exited (if failed || b then 1 else 0)) ∧
      (∀ fault, Bin.fileLoop w o p fs = .error fault →
        (Bin.fileLoopRun w o p (fun _ _ => true) n failed fs).ending = Bin.endingOf fault) := by
    intro p fs
    induction fs with
    | nil =>
      intro n failed
      refine ⟨fun ls b h => ?_, fun fault h => by cases h⟩
      cases h
      exact ⟨rfl, by simp [Bin.fileLoopRun]⟩
    | cons f fs ih =>
      intro n failed
      obtain ⟨path, f⟩ := f
      cases hh : (Bin.hashFile w o p f).run with
      | error fault =>
        refine ⟨fun ls b h => ?_, fun fault' h => ?_⟩
        · simp only [Bin.fileLoop, hh, bind, Except.bind] at h; cases h
        · simp only [Bin.fileLoop, hh, bind, Except.bind] at h
          cases h
          simp only [Bin.fileLoopRun, hh]
      | ok r =>
        have key : ∃ line fl, Bin.fileLoop w o p ((path, f) :: fs) =
              (Bin.fileLoop w o p fs >>= fun q => .ok (line :: q.1, fl || q.2)) ∧
            Bin.fileLoopRun w o p (fun _ _ => true) n failed ((path, f) :: fs) =
              ⟨.opens path :: .prints line :: (Bin.fileLoopRun w o p (fun _ _ => true) (n + 1) (failed || fl) fs).effects,
                (Bin.fileLoopRun w o p (fun _ _ => true) (n + 1) (failed || fl) fs).ending⟩ := by
          cases r with
          | error m =>
            refine ⟨.err ("blake2: " ++ path ++ ": " ++ m), true, ?_, ?_⟩
            · simp only [Bin.fileLoop, hh, bind, Except.bind]
            · simp only [Bin.fileLoopRun, hh, if_true, Bool.or_true]
          | ok hash =>
            by_cases hl : o.inputs.length > 1
            · refine ⟨.out (String.ofList hash ++ "  " ++ path), false, ?_, ?_⟩
              · simp only [Bin.fileLoop, hh, bind, Except.bind, if_pos hl]
              · simp only [Bin.fileLoopRun, hh, if_true, Bool.or_false, if_pos hl]
            · refine ⟨.out (String.ofList hash), false, ?_, ?_⟩
              · simp only [Bin.fileLoop, hh, bind, Except.bind, if_neg hl]
              · simp only [Bin.fileLoopRun, hh, if_true, Bool.or_false, if_neg hl]
        obtain ⟨line, fl, k1, k2⟩ := key
        rw [k1, k2]
        obtain ⟨i1, i2⟩ := ih (n + 1) (failed || fl)
        cases hq : Bin.fileLoop w o p fs with
        | error fault =>
          refine ⟨fun ls b h => ?_, fun fault' h => ?_⟩
          · simp only [bind, Except.bind] at h; cases h
          · simp only [bind, Except.bind] at h; cases h
            exact i2 _ hq
        | ok q =>
          obtain ⟨ls, b⟩ := q
          obtain ⟨j1, j2⟩ := i1 _ _ hq
          refine ⟨fun ls' b' h => ?_, fun fault' h => by simp only [bind, Except.bind] at h; cases h⟩
          simp only [bind, Except.bind] at h
          cases h
          refine ⟨?_, by rw [j2, Bool.or_assoc]⟩
          show _ :: printed _ = _
          rw [j1]
  simp only [← hend]
  unfold Bin.main Bin.mainRun
  cases hm : (Bin.makeParams e w o).run with
  | error fault =>
    refine ⟨fun out h => (by simp only [bind, Except.bind] at h; cases h), fun f h => ?_⟩
    simp only [bind, Except.bind] at h
    cases h
    rfl
  | ok r =>
    cases r with
    | error m =>
      refine ⟨fun out h => ?_, fun f h => by simp only [bind, Except.bind] at h; cases h⟩
      simp only [bind, Except.bind] at h
      cases h
      exact ⟨rfl, rfl⟩
    | ok p =>
      simp only [bind, Except.bind]
      by_cases hi : o.inputs.isEmpty = true
      · simp only [if_pos hi]
        cases hh : (Bin.hashStdin o p stdin).run with
        | error fault =>
          refine ⟨fun out h => (by simp only at h; cases h), fun f h => ?_⟩
          simp only at h
          cases h
          rfl
        | ok r =>
          cases r with
          | error m =>
            refine ⟨fun out h => ?_, fun f h => by simp only at h; cases h⟩
            simp only at h
            cases h
            exact ⟨rfl, rfl⟩
          | ok d =>
            refine ⟨fun out h => ?_, fun f h => by simp only at h; cases h⟩
            simp only at h
            cases h
            exact ⟨rfl, rfl⟩
      · simp only [if_neg hi]
        obtain ⟨i1, i2⟩ := loop p (o.inputs.zip files) 0 false
        cases hq : Bin.fileLoop w o p (o.inputs.zip files) with
        | error fault =>
          refine ⟨fun out h => (by simp only at h; cases h), fun f h => ?_⟩
          simp only at h
          cases h
          exact i2 _ hq
        | ok q =>
          obtain ⟨ls, b⟩ := q
          obtain ⟨j1, j2⟩ := i1 _ _ hq
          refine ⟨fun out h => ?_, fun f h => by simp only at h; cases h⟩
          simp only at h
          cases h
          exact ⟨j1, by rw [j2, Bool.false_or]⟩

/-- Three files, the second of which has no end: the digest of the first is delivered, the second is turned to, the third is not. -/
example (e : Machine) (w : World) (m : Nat → Except String (List Byte)) :
    printed (Bin.mainRun e w { sampleOpt with inputs := ["a", "b", "c"] } []
      [⟨none, [.ok [1], .ok []], .ok 1, m⟩, ⟨none, [.ok [2], .interrupted], .ok 1, m⟩, ⟨none, [.ok []], .ok 0, m⟩]
      fun _ _ => true).effects = [.out (String.ofList (hexOf (sampleOpt.digest [1])) ++ "  " ++ "a")] ∧
    (Bin.mainRun e w { sampleOpt with inputs := ["a", "b", "c"] } []
      [⟨none, [.ok [1], .ok []], .ok 1, m⟩, ⟨none, [.ok [2], .interrupted], .ok 1, m⟩, ⟨none, [.ok []], .ok 0, m⟩]
      fun _ _ => true).ending = .hung := by
  obtain ⟨_, h1, h2⟩ := C55_files e w { sampleOpt with inputs := ["a", "b", "c"] } (sampleOpt_ok w) (by simp) []
    [⟨none, [.ok [1], .ok []], .ok 1, m⟩, ⟨none, [.ok [2], .interrupted], .ok 1, m⟩, ⟨none, [.ok []], .ok 0, m⟩] rfl
    (by simp [ReadsFit]) (fun _ _ => true) _ rfl _ rfl
  exact ⟨h1, h2⟩

/-- Two files that can be read; the pipe is closed after the first line. Not a success. -/
example (e : Machine) (w : World) (m : Nat → Except String (List Byte)) :
    printed (Bin.mainRun e w { sampleOpt with inputs := ["a", "b"] } []
      [⟨none, [.ok [1], .ok []], .ok 1, m⟩, ⟨none, [.ok [2], .ok []], .ok 1, m⟩] fun n _ => n < 1).effects =
      [.out (String.ofList (hexOf (sampleOpt.digest [1])) ++ "  " ++ "a")] ∧
    (Bin.mainRun e w { sampleOpt with inputs := ["a", "b"] } []
      [⟨none, [.ok [1], .ok []], .ok 1, m⟩, ⟨none, [.ok [2], .ok []], .ok 1, m⟩] fun n _ => n < 1).ending = .exited 101 := by
  obtain ⟨_, h1, h2⟩ := C55_files e w { sampleOpt with inputs := ["a", "b"] } (sampleOpt_ok w) (by simp) []
    [⟨none, [.ok [1], .ok []], .ok 1, m⟩, ⟨none, [.ok [2], .ok []], .ok 1, m⟩] rfl
    (by simp [ReadsFit]) (fun n _ => n < 1) _ rfl _ rfl
  exact ⟨h1, h2⟩

/-- The hypothesis of `C55_status_zero` is met, by standard input. -/
example (e : Machine) (w : World) :
    Bin.mainRun e w sampleOpt [.ok [1, 2], .ok []] [] (fun _ _ => true) =
      ⟨[.prints (.out (String.ofList (hexOf (sampleOpt.digest [1, 2]))))], .exited 0⟩ :=
  C55_stdin e w sampleOpt (sampleOpt_ok w) rfl rfl [.ok [1, 2], .ok []] (by simp [ReadsFit]) [] fun _ _ => true

end Blake2
