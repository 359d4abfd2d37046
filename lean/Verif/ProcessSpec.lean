import Verif.CliSpec
/-!
# Vocabulary for runs of the command line tool as a process

What can be seen of the tool from outside while it runs, and what it should have printed if it is stopped on the way. Nothing here
refers to the model.
-/
namespace Blake2.Cli

/-- One thing the process does: it turns to an input file, or it delivers a line. -/
inductive Effect where
  | opens (path : String)
  | prints (line : Line)
deriving DecidableEq

/-- How the process ends. `hung`: it does not. `undefined`: undefined behaviour. -/
inductive Ending where
  | exited (status : Nat)
  | hung
  | undefined
deriving DecidableEq

/-- A run of the process: what it does, in order, and how it ends. If the process is killed, what it has done is some prefix of
`effects`. -/
structure Run where
  effects : List Effect
  ending : Ending
deriving DecidableEq

/-- The lines delivered. -/
def printed (es : List Effect) : List Line := es.filterMap fun
  | .prints l => some l
  | .opens _ => none

/-- The files turned to. -/
def opened (es : List Effect) : List String := es.filterMap fun
  | .prints _ => none
  | .opens p => some p

/-- The lines for the input files, up to the first file that does not come to an end. -/
def Opt.linesUpTo (w : World) (o : Opt) : List (String × OsFile) → List Line
  | [] => []
  | (path, f) :: rest =>
    match f.content w o.mmap with
    | none => []
    | some r => o.line path r :: o.linesUpTo w rest

/-- Of the lines to be written, those that are delivered when `sink k line` tells whether line number `k` is accepted: all up to the
first that is refused. `n` lines have been written before. -/
def delivered (sink : Nat → Line → Bool) : (n : Nat) → List Line → List Line
  | _, [] => []
  | n, l :: ls => if sink n l then l :: delivered sink (n + 1) ls else []

end Blake2.Cli
