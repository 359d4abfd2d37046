import Verif.Model.RunAllTests
/-!
# The program that runs all tests: C67
-/
namespace Blake2.RunAll

/-! ## Specification -/

/-- A directory of the project, and the words after `cargo`. -/
structure Step where
  project : String
  args : List String

/-- What should be run: every crate with and without its default features, the randomised tests in release mode, the build for the caller who
wants the portable code not inlined, and that the fuzz targets compile. -/
def plan : List Step :=
  [⟨"blake2b", ["test"]⟩, ⟨"blake2b", ["test", "--no-default-features"]⟩,
   ⟨"blake2s", ["test"]⟩, ⟨"blake2s", ["test", "--no-default-features"]⟩,
   ⟨".", ["test"]⟩, ⟨".", ["test", "--no-default-features"]⟩,
   ⟨"blake2_bin", ["test"]⟩, ⟨"blake2_bin", ["test", "--no-default-features"]⟩,
   ⟨".", ["test", "--release"]⟩,
   ⟨"blake2b", ["test", "--release", "--features=uninline_portable"]⟩,
   ⟨"blake2b/fuzz", ["check"]⟩, ⟨"blake2s/fuzz", ["check"]⟩]

/-- The path of something in a directory: a slash between the two, unless the directory is the empty path or ends in a slash already. -/
def under (dir name : List Char) : List Char :=
  if dir = [] ∨ ['/'] <:+ dir then dir ++ name else dir ++ ['/'] ++ name

/-- The command of a step: in its directory under the root, with the target directory of the caller or else that of the project. -/
def Step.cmd (cargo root : List Char) (var : Option (List Char)) (s : Step) : Cmd :=
  { dir := under root s.project.toList
    words := cargo :: s.args.map String.toList
    targetDir := var.getD (under root "target".toList) }

/-- The commands among what was seen. -/
def ranOf (seen : List Event) : List Cmd :=
  seen.filterMap fun
    | .run c => some c
    | .line _ => none

/-- Lines announcing a command. -/
def announce (c : Cmd) : List Event :=
  [.line "=== COMMAND ===".toList, .line ("cd ".toList ++ c.dir ++ " && ".toList ++ [' '].intercalate c.words), .line []]

/-- What is seen when all of `cs` ran and succeeded. -/
def allSeen (cs : List Cmd) : List Event := cs.flatMap fun c => announce c ++ [.run c]

/-! ## Proofs -/

theorem join_eq_under (dir name : List Char) : join dir name = under dir name := by
  unfold join under
  rcases List.eq_nil_or_concat dir with rfl | ⟨l, c, rfl⟩
  · rfl
  · have h : (['/'] <:+ l ++ [c]) ↔ c = '/' := by
      constructor
      · rintro ⟨k, hk⟩
        exact (List.singleton_inj.mp (List.append_inj_right' hk rfl)).symm
      · rintro rfl
        exact ⟨l, rfl⟩
    by_cases hc : c = '/' <;> simp [h, hc]

theorem spaced_eq_intercalate : ∀ words : List (List Char), spaced words = [' '].intercalate words
  | [] => rfl
  | [w] => by simp [spaced, List.intercalate]
  | w :: v :: ws => by
    rw [spaced, spaced_eq_intercalate (v :: ws)]
    · simp [List.intercalate, List.intersperse]
    · simp

/-- Run a list of commands as one program. -/
def runList (cs : List Cmd) : Prog Unit := fun os seen =>
  match cs with
  | [] => .go () seen
  | c :: cs =>
    match os (seen ++ announce c) c with
    | .spawnFailed => .exit 101 (seen ++ announce c)
    | .succeeded => runList cs os (seen ++ announce c ++ [.run c])
    | .failed => .exit 1 (seen ++ announce c ++ [.run c, .line "Command failed :(".toList])

theorem runList_append (cs ds : List Cmd) (os : Started) (seen : List Event) :
    runList (cs ++ ds) os seen = (runList cs >>= fun _ => runList ds) os seen := by
  induction cs generalizing seen with
  | nil => rfl
  | cons c cs ih =>
    simp only [List.cons_append, runList, bind]
    cases h : os (seen ++ announce c) c with
    | spawnFailed => rfl
    | succeeded => exact ih _
    | failed => rfl

theorem runCmd_eq (root target project : List Char) (words : List (List Char)) :
    runCmd root target project words = runList [{ dir := under root project, words := words, targetDir := target }] := by
  funext os seen
  simp only [runCmd, runList, println, bind, announce, join_eq_under, spaced_eq_intercalate, List.append_assoc, List.cons_append, List.nil_append]
  split <;> simp_all

theorem bind_runList (cs ds : List Cmd) : (runList cs >>= fun _ => runList ds) = runList (cs ++ ds) := by
  funext os seen
  exact (runList_append cs ds os seen).symm

theorem bind_pure' (m : Prog PUnit) : (m >>= fun _ => pure ⟨⟩) = m := by
  funext os seen
  simp only [bind, pure]
  cases m os seen <;> rfl

theorem main_eq (cargo root : List Char) (var : Option (List Char)) :
    main cargo root var = runList (plan.map (Step.cmd cargo root var)) := by
  unfold main testAll runCargoCmd
  simp only [List.forM_eq_forM, List.forM_cons, List.forM_nil, runCmd_eq, join_eq_under, bind_pure', bind_runList]
  rfl

/-- How a list of commands ends. -/
theorem runList_ends (cs : List Cmd) (os : Started) (seen : List Event) :
    ((∀ i (h : i < cs.length), os (seen ++ allSeen (cs.take i) ++ announce cs[i]) cs[i] = .succeeded) ∧
      runList cs os seen = .go () (seen ++ allSeen cs)) ∨
    (∃ i, ∃ h : i < cs.length,
      (∀ j (hj : j < i), os (seen ++ allSeen (cs.take j) ++ announce cs[j]) cs[j] = .succeeded) ∧
      ((os (seen ++ allSeen (cs.take i) ++ announce cs[i]) cs[i] = .failed ∧
        runList cs os seen = .exit 1 (seen ++ allSeen (cs.take (i + 1)) ++ [.line "Command failed :(".toList])) ∨
       (os (seen ++ allSeen (cs.take i) ++ announce cs[i]) cs[i] = .spawnFailed ∧
        runList cs os seen = .exit 101 (seen ++ allSeen (cs.take i) ++ announce cs[i])))) := by
  induction cs generalizing seen with
  | nil => left; simp [runList, allSeen]
  | cons c cs ih =>
    have step : ∀ ds : List Cmd, seen ++ allSeen (c :: ds) = seen ++ announce c ++ [.run c] ++ allSeen ds := by
      intro ds; simp [allSeen]
    cases h : os (seen ++ announce c) c with
    | spawnFailed =>
      right
      refine ⟨0, by simp, by omega, .inr ⟨?_, ?_⟩⟩
      · simpa [allSeen] using h
      · simp [runList, h, allSeen]
    | failed =>
      right
      refine ⟨0, by simp, by omega, .inl ⟨?_, ?_⟩⟩
      · simpa [allSeen] using h
      · simp [runList, h, allSeen]
    | succeeded =>
      have hr : runList (c :: cs) os seen = runList cs os (seen ++ announce c ++ [.run c]) := by simp [runList, h]
      rcases ih (seen ++ announce c ++ [.run c]) with ⟨h1, h2⟩ | ⟨i, hi, h1, h2⟩
      · left
        refine ⟨?_, by rw [hr, h2, step]⟩
        intro i hi
        cases i with
        | zero => simpa [allSeen] using h
        | succ i =>
          have := h1 i (by simpa using hi)
          simpa only [List.take_succ_cons, step, List.getElem_cons_succ] using this
      · right
        refine ⟨i + 1, by simpa using hi, ?_, ?_⟩
        · intro j hj
          cases j with
          | zero => simpa [allSeen] using h
          | succ j =>
            have := h1 j (by omega)
            simpa only [List.take_succ_cons, step, List.getElem_cons_succ] using this
        · simpa only [hr, List.take_succ_cons, step, List.getElem_cons_succ] using h2

theorem ranOf_append (x y : List Event) : ranOf (x ++ y) = ranOf x ++ ranOf y := List.filterMap_append

theorem ranOf_allSeen (cs : List Cmd) : ranOf (allSeen cs) = cs := by
  induction cs with
  | nil => rfl
  | cons c cs ih =>
    have : allSeen (c :: cs) = announce c ++ [.run c] ++ allSeen cs := by simp [allSeen]
    rw [this, ranOf_append, ih]
    rfl

/-- The exit status and what was seen. -/
def outcome : Run Unit → Nat × List Event
  | .go _ seen => (0, seen)
  | .exit status seen => (status, seen)

theorem process_eq (cargo root : List Char) (var : Option (List Char)) (os : Started) :
    process cargo root var os = outcome (runList (plan.map (Step.cmd cargo root var)) os []) := by
  unfold process
  rw [main_eq]
  generalize runList (plan.map (Step.cmd cargo root var)) os [] = r
  cases r <;> rfl

theorem outcome_runList (cmds : List Cmd) (os : Started) (r : Nat × List Event) (hr : r = outcome (runList cmds os [])) :
    (r.1 = 0 ∧ (∀ i (h : i < cmds.length), os (allSeen (cmds.take i) ++ announce cmds[i]) cmds[i] = .succeeded) ∧
      r.2 = allSeen cmds ∧ ranOf r.2 = cmds) ∨
    (∃ i, ∃ h : i < cmds.length,
      (∀ j (hj : j < i), os (allSeen (cmds.take j) ++ announce cmds[j]) cmds[j] = .succeeded) ∧
      ((os (allSeen (cmds.take i) ++ announce cmds[i]) cmds[i] = .failed ∧ r.1 = 1 ∧
          r.2 = allSeen (cmds.take (i + 1)) ++ [.line "Command failed :(".toList] ∧ ranOf r.2 = cmds.take (i + 1)) ∨
       (os (allSeen (cmds.take i) ++ announce cmds[i]) cmds[i] = .spawnFailed ∧ r.1 = 101 ∧ ranOf r.2 = cmds.take i))) := by
  have fin : ∀ c : Cmd, ranOf (announce c) = [] := fun _ => rfl
  rcases runList_ends cmds os [] with ⟨h1, h2⟩ | ⟨i, hi, h1, h2⟩
  · left
    rw [h2] at hr
    subst hr
    exact ⟨rfl, by simpa only [List.nil_append] using h1, rfl, ranOf_allSeen _⟩
  · right
    refine ⟨i, hi, by simpa only [List.nil_append] using h1, ?_⟩
    rcases h2 with ⟨h3, h4⟩ | ⟨h3, h4⟩
    · left
      rw [h4] at hr
      subst hr
      refine ⟨by simpa only [List.nil_append] using h3, rfl, rfl, ?_⟩
      show ranOf ([] ++ allSeen (cmds.take (i + 1)) ++ [.line "Command failed :(".toList]) = _
      rw [List.nil_append, ranOf_append, ranOf_allSeen]
      exact List.append_nil _
    · right
      rw [h4] at hr
      subst hr
      refine ⟨by simpa only [List.nil_append] using h3, rfl, ?_⟩
      show ranOf ([] ++ allSeen (cmds.take i) ++ announce cmds[i]) = _
      rw [List.nil_append, ranOf_append, ranOf_allSeen, fin]
      exact List.append_nil _

/-! ## The property -/

/-- **C67.** Exit status 0 means that all twelve commands ran, in order, each once, and succeeded, whatever the commands do and however that
depends on what ran before. Otherwise the commands up to the first one that did not succeed ran, and nothing after it; the exit status is 1 and
the failure is announced if that command failed, and 101 if it could not be started. -/
theorem C67_run_all_tests (cargo root : List Char) (var : Option (List Char)) (os : Started) (cmds : List Cmd)
    (hc : cmds = plan.map (Step.cmd cargo root var)) (r : Nat × List Event) (hr : r = process cargo root var os) :
    (r.1 = 0 ∧ (∀ i (h : i < cmds.length), os (allSeen (cmds.take i) ++ announce cmds[i]) cmds[i] = .succeeded) ∧
      r.2 = allSeen cmds ∧ ranOf r.2 = cmds) ∨
    (∃ i, ∃ h : i < cmds.length,
      (∀ j (hj : j < i), os (allSeen (cmds.take j) ++ announce cmds[j]) cmds[j] = .succeeded) ∧
      ((os (allSeen (cmds.take i) ++ announce cmds[i]) cmds[i] = .failed ∧ r.1 = 1 ∧
          r.2 = allSeen (cmds.take (i + 1)) ++ [.line "Command failed :(".toList] ∧ ranOf r.2 = cmds.take (i + 1)) ∨
       (os (allSeen (cmds.take i) ++ announce cmds[i]) cmds[i] = .spawnFailed ∧ r.1 = 101 ∧ ranOf r.2 = cmds.take i))) :=
  outcome_runList cmds os r (by rw [hr, process_eq, hc])

/-- **C67.** The status is 0 exactly if every command, when its turn comes after the others succeeded, succeeds. -/
theorem C67_green (cargo root : List Char) (var : Option (List Char)) (os : Started) (cmds : List Cmd)
    (hc : cmds = plan.map (Step.cmd cargo root var)) :
    (process cargo root var os).1 = 0 ↔
      ∀ i (h : i < cmds.length), os (allSeen (cmds.take i) ++ announce cmds[i]) cmds[i] = .succeeded := by
  generalize hr : process cargo root var os = r
  rcases C67_run_all_tests cargo root var os cmds hc r hr.symm with ⟨h0, h1, -⟩ | ⟨i, hi, -, ⟨h2, h3, -⟩ | ⟨h2, h3, -⟩⟩
  · exact ⟨fun _ => h1, fun _ => h0⟩
  · refine ⟨fun h => absurd (h3.symm.trans h) (by decide), fun h => ?_⟩
    rw [h i hi] at h2; cases h2
  · refine ⟨fun h => absurd (h3.symm.trans h) (by decide), fun h => ?_⟩
    rw [h i hi] at h2; cases h2

/-- Non-vacuity: if all tests pass the status is 0; if the tests of blake2s fail without the standard library it is 1 and four commands ran. -/
example : (process "cargo".toList "/src".toList none fun _ _ => .succeeded).1 = 0 := by decide +kernel

example :
    let r := process "cargo".toList "/src".toList none fun _ c =>
      if c.dir = "/src/blake2s".toList ∧ "--no-default-features".toList ∈ c.words then .failed else .succeeded
    r.1 = 1 ∧ (ranOf r.2).length = 4 ∧ ((ranOf r.2).map Cmd.targetDir).eraseDups = ["/src/target".toList] := by
  decide +kernel

end Blake2.RunAll
