import Verif.ProcessSpec
import Verif.Model.Bin
/-!
# Model of the command line tool as a process

`main` of `Verif/Model/Bin.lean` again, now with what it does on the way: `println!` and `eprintln!` may fail (the pipe is closed, the
disk is full), an input may never come to an end, and the process may be killed. `sink n line` tells whether the `n`-th line is
accepted by the stream it is written to. Standard output is line buffered and every line ends in a newline, so a failure shows in
the `println!` that causes it. `println!` and `eprintln!` panic on failure (standard library), and a panic of the main thread
ends the process with status 101. Rust's runtime ignores `SIGPIPE`, so a closed pipe is a failure of this kind.

Line numbers are of blake2_bin/src/main.rs.
-/
namespace Blake2.Bin
open Cli

/-- What is seen of a fault of the main thread: a panic is exit status 101. Rust's runtime; models no line of /repo. -/
def endingOf : Fault → Ending
  | .panic => .exited 101
  | .ub => .undefined
  | .diverge => .hung

/-- The `for` loop of `main` and what follows it, `n` lines having been written and `failed` as in the code. main.rs 371-389. -/
def fileLoopRun (w : World) (o : Opt) (params : Params) (sink : Nat → Line → Bool) :
    (n : Nat) → (failed : Bool) → List (String × OsFile) → Run
  | _, failed, [] => ⟨[], .exited (if failed then 1 else 0)⟩
  | n, failed, (path, f) :: rest =>
    match (hashFile w o params f).run with
    | .error fault => ⟨[.opens path], endingOf fault⟩
    | .ok (.ok hash) =>
      let line := if o.inputs.length > 1 then Line.out (String.ofList hash ++ "  " ++ path) else .out (String.ofList hash)
      if sink n line then
        let run := fileLoopRun w o params sink (n + 1) failed rest
        ⟨.opens path :: .prints line :: run.effects, run.ending⟩
      else ⟨[.opens path], endingOf .panic⟩
    | .ok (.error m) =>
      let line := Line.err ("blake2: " ++ path ++ ": " ++ m)
      if sink n line then
        let run := fileLoopRun w o params sink (n + 1) true rest
        ⟨.opens path :: .prints line :: run.effects, run.ending⟩
      else ⟨[.opens path], endingOf .panic⟩

/-- `main`. main.rs 350-390. `files` holds the answers of the operating system for `opt.inputs`, in the same order. -/
def mainRun (e : Machine) (w : World) (o : Opt) (stdin : List ReadResult) (files : List OsFile) (sink : Nat → Line → Bool) :
    Run :=
  match (makeParams e w o).run with
  | .error fault => ⟨[], endingOf fault⟩
  | .ok (.error m) =>
    let line := Line.err ("blake2: " ++ m)
    if sink 0 line then ⟨[.prints line], .exited 1⟩ else ⟨[], endingOf .panic⟩
  | .ok (.ok params) =>
    if o.inputs.isEmpty then
      match (hashStdin o params stdin).run with
      | .error fault => ⟨[], endingOf fault⟩
      | .ok (.ok hash) =>
        let line := Line.out (String.ofList hash)
        if sink 0 line then ⟨[.prints line], .exited 0⟩ else ⟨[], endingOf .panic⟩
      | .ok (.error m) =>
        let line := Line.err ("blake2: stdin: " ++ m)
        if sink 0 line then ⟨[.prints line], .exited 1⟩ else ⟨[], endingOf .panic⟩
    else fileLoopRun w o params sink 0 false (o.inputs.zip files)

end Blake2.Bin
