/-!
# Model of run_all_tests/src/main.rs

The program CI runs. It starts a fixed list of `cargo` commands one after the other. What the commands do is an argument (`Started`), and may
depend on everything that ran before. Paths are lists of characters; the project root (`project_root`, the parent of the compile-time variable
`CARGO_MANIFEST_DIR`) and the `cargo` of `env!("CARGO")` are arguments.
-/
namespace Blake2.RunAll

/-- A command as it is started: directory, words, and the value of `CARGO_TARGET_DIR` it inherits. run_all_tests/src/main.rs 16-20, 40. -/
structure Cmd where
  dir : List Char
  words : List (List Char)
  targetDir : List Char
  deriving DecidableEq, Repr

/-- What becomes of a command. run_all_tests/src/main.rs 19-20, 22. -/
inductive Outcome where
  | spawnFailed
  | succeeded
  | failed
  deriving DecidableEq, Repr

/-- What can be seen of the program: lines it prints and commands it runs. run_all_tests/src/main.rs 13-24. -/
inductive Event where
  | line (text : List Char)
  | run (cmd : Cmd)
  deriving DecidableEq, Repr

/-- What each command does, given what happened before it. Not in /repo: the operating system and cargo. -/
abbrev Started := List Event → Cmd → Outcome

/-- The program so far: still going, or ended with an exit status, with what was seen. run_all_tests/src/main.rs 24 (`process::exit`), 20
(`expect`: a panic, exit status 101). -/
inductive Run (α : Type) where
  | go (value : α) (seen : List Event)
  | exit (status : Nat) (seen : List Event)

/-- The effects of the program: it sees `Started` and adds to what was seen. run_all_tests/src/main.rs 11-67. -/
abbrev Prog (α : Type) := Started → List Event → Run α

/-- run_all_tests/src/main.rs 11-67: statements one after the other; `exit` ends the program. -/
instance : Monad Prog where
  pure x := fun _ seen => .go x seen
  bind m f := fun os seen =>
    match m os seen with
    | .go x seen => f x os seen
    | .exit status seen => .exit status seen

/-- `println!`. run_all_tests/src/main.rs 13-15, 23. -/
def println (text : List Char) : Prog Unit := fun _ seen => .go () (seen ++ [.line text])

/-- `Path::join` with a relative path: a separator is added unless the path is empty or ends in one. run_all_tests/src/main.rs 12, 39. -/
def join (dir name : List Char) : List Char :=
  match dir.getLast? with
  | some c => if c = '/' then dir ++ name else dir ++ '/' :: name
  | none => name

/-- `cmd.join(" ")`. run_all_tests/src/main.rs 14. -/
def spaced : List (List Char) → List Char
  | [] => []
  | [w] => w
  | w :: ws => w ++ ' ' :: spaced ws

/-- `run_cmd`. run_all_tests/src/main.rs 11-26. The environment variable is passed along as `targetDir`. -/
def runCmd (root targetDir project : List Char) (cmd : List (List Char)) : Prog Unit := do
  let projectDir := join root project
  println "=== COMMAND ===".toList
  println ("cd ".toList ++ projectDir ++ " && ".toList ++ spaced cmd)
  println []
  fun os seen =>
    let c : Cmd := { dir := projectDir, words := cmd, targetDir := targetDir }
    match os seen c with
    | .spawnFailed => .exit 101 seen
    | .succeeded => .go () (seen ++ [.run c])
    | .failed => .exit 1 (seen ++ [.run c, .line "Command failed :(".toList])

/-- `run_cargo_cmd`. run_all_tests/src/main.rs 28-32. -/
def runCargoCmd (cargo root targetDir project : List Char) (flags : List (List Char)) : Prog Unit :=
  runCmd root targetDir project ([cargo] ++ flags)

/-- The commands of the two nested loops. run_all_tests/src/main.rs 43-51. -/
def testAll (cargo root targetDir : List Char) : Prog Unit :=
  ["blake2b".toList, "blake2s".toList, ".".toList, "blake2_bin".toList].forM fun project =>
    [false, true].forM fun noStd =>
      let flags := ["test".toList]
      let flags := if noStd then flags ++ ["--no-default-features".toList] else flags
      runCargoCmd cargo root targetDir project flags

/-- `main`. run_all_tests/src/main.rs 34-67. `var` is the value of `CARGO_TARGET_DIR` at the start, if it has one. -/
def main (cargo root : List Char) (var : Option (List Char)) : Prog Unit := do
  let targetDir := var.getD (join root "target".toList)
  testAll cargo root targetDir
  runCargoCmd cargo root targetDir ".".toList ["test".toList, "--release".toList]
  runCargoCmd cargo root targetDir "blake2b".toList ["test".toList, "--release".toList, "--features=uninline_portable".toList]
  runCargoCmd cargo root targetDir "blake2b/fuzz".toList ["check".toList]
  runCargoCmd cargo root targetDir "blake2s/fuzz".toList ["check".toList]

/-- The exit status of the process and what was seen of it: status 0 when `main` returns. run_all_tests/src/main.rs 34-67. -/
def process (cargo root : List Char) (var : Option (List Char)) (os : Started) : Nat × List Event :=
  match main cargo root var os [] with
  | .go _ seen => (0, seen)
  | .exit status seen => (status, seen)

end Blake2.RunAll
