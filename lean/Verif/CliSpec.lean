import Verif.ApiSpec
/-!
# Specification of the command line tool

What the options of the `blake2` tool mean, and what it should print, given how the operating system answers. Nothing here
refers to the model.
-/
namespace Blake2.Cli
open Spec

/-- A parsed command line (`blake2 --help`; blake2_bin/src/main.rs 10-74). Parsing itself is done by the `structopt` crate (`ArgSpec.lean`).
Paths are given as the text the tool prints for them. -/
structure Opt where
  inputs : List String := []
  mmap : Bool := false
  big : Bool := false
  small : Bool := false
  parallel : Bool := false
  length : Option Nat := none
  key : Option (List Char) := none
  salt : Option (List Char) := none
  personal : Option (List Char) := none
  fanout : Option (BitVec 8) := none
  maxDepth : Option (BitVec 8) := none
  maxLeafLength : Option (BitVec 32) := none
  nodeOffset : Option (BitVec 64) := none
  nodeDepth : Option (BitVec 8) := none
  innerHashLength : Option Nat := none
  lastNode : Bool := false

/-- What one call of `read` on an input returns: some bytes (none at end of file), the error `Interrupted`, or another error. -/
inductive ReadResult where
  | ok (bytes : List Byte)
  | interrupted
  | error (msg : String)

/-- How the operating system answers the requests made for one input file. -/
structure OsFile where
  /-- the error of `File::open`, if it fails -/
  openError : Option String
  /-- the successive results of `read` -/
  reads : List ReadResult
  /-- the length according to `metadata`, or its error -/
  metadata : Except String Nat
  /-- the result of mapping that many bytes -/
  map : Nat → Except String (List Byte)

/-- What is outside the program and the same for all inputs. -/
structure World where
  /-- the text of the error for text that is not hexadecimal (crate `hex`) -/
  hexMessage : List Char → String
  /-- `usize` has `ptrBits` bits -/
  ptrBits : Nat

/-- The algorithm asked for. -/
def Opt.alg (o : Opt) : Alg := if o.small then .s else .b

/-- The bytes of a hexadecimal option; none if it was not given. -/
def bytesOf (t : Option (List Char)) : List Byte := (t.bind unhex).getD []

/-- The parameters asked for: each option sets its own parameter, the others keep their defaults. -/
def Opt.config (o : Opt) : Config :=
  { digestLength := o.length.getD (maxOut o.alg)
    key := bytesOf o.key
    fanout := (o.fanout.map BitVec.toNat).getD 1
    maxDepth := (o.maxDepth.map BitVec.toNat).getD 1
    leafLength := (o.maxLeafLength.map BitVec.toNat).getD 0
    nodeOffset := (o.nodeOffset.map BitVec.toNat).getD 0
    nodeDepth := (o.nodeDepth.map BitVec.toNat).getD 0
    innerLength := o.innerHashLength.getD 0
    salt := bytesOf o.salt
    personal := bytesOf o.personal
    lastNode := o.lastNode }

/-- The hash asked for. -/
def Opt.digest (o : Opt) (data : List Byte) : List Byte :=
  if o.parallel then hashP o.alg o.config.digestLength o.config.key data else hash o.alg o.config data

/-- What may be wrong with the options: something the tool reports, or a value out of range, on which it panics. -/
inductive Problem where
  | message (m : String)
  | panic
deriving DecidableEq

/-- An option that only the serial hash functions have. -/
def Opt.serialOnly {α : Type} (o : Opt) (name : String) (value : Option α) (inRange : α → Prop) [DecidablePred inRange] :
    Option Problem :=
  value.bind fun x =>
    if o.parallel then some (.message ("--" ++ name ++ " not supported"))
    else if inRange x then none else some .panic

/-- An option whose value is hexadecimal text. -/
def hexOption (w : World) (value : Option (List Char)) (check : List Byte → Option Problem) : Option Problem :=
  value.bind fun t =>
    match unhex t with
    | none => some (.message (w.hexMessage t))
    | some bytes => check bytes

/-- Everything that may be wrong with the options, in the order in which the tool looks. -/
def Opt.checks (w : World) (o : Opt) : List (Option Problem) :=
  [ if o.big && o.small then some (.message "-b and -s can't be used together") else none,
    o.length.bind fun n => if 1 ≤ n ∧ n ≤ maxOut o.alg then none else some .panic,
    hexOption w o.key fun k => if k.length ≤ maxOut o.alg then none else some .panic,
    hexOption w o.salt fun s => o.serialOnly "salt" (some s) (fun s => s.length ≤ saltBytes o.alg),
    hexOption w o.personal fun s => o.serialOnly "personal" (some s) (fun s => s.length ≤ saltBytes o.alg),
    o.serialOnly "fanout" o.fanout (fun _ => True),
    o.serialOnly "max-depth" o.maxDepth (fun _ => True),
    o.serialOnly "max-leaf-length" o.maxLeafLength (fun _ => True),
    o.serialOnly "node-offset" o.nodeOffset (fun n => n.toNat < 2 ^ (8 * nodeOffsetBytes o.alg)),
    o.serialOnly "node-depth" o.nodeDepth (fun _ => True),
    o.serialOnly "inner-hash-length" o.innerHashLength (fun n => n ≤ maxOut o.alg),
    o.serialOnly "last-node" (if o.lastNode then some () else none) (fun _ => True) ]

/-- The first thing that is wrong with the options. -/
def Opt.problem (w : World) (o : Opt) : Option Problem := (o.checks w).findSome? id

/-- What reading to the end delivers: all bytes in order, or the first error other than `Interrupted`. `none` if the input
does not come to an end. -/
def readOutcome : List ReadResult → Option (Except String (List Byte))
  | [] => none
  | .ok [] :: _ => some (.ok [])
  | .ok bytes :: rest => (readOutcome rest).map (Except.map (bytes ++ ·))
  | .interrupted :: rest => readOutcome rest
  | .error m :: _ => some (.error m)

/-- What the operating system delivers for a file. -/
def OsFile.content (w : World) (mmap : Bool) (f : OsFile) : Option (Except String (List Byte)) :=
  match f.openError with
  | some m => some (.error m)
  | none =>
    if mmap then
      match f.metadata with
      | .error m => some (.error m)
      | .ok len =>
        if 2 ^ (w.ptrBits - 1) ≤ len then some (.error "mmap length would overflow isize")
        else some (f.map len)
    else readOutcome f.reads

/-- A `read` never returns more bytes than the buffer it was given holds. -/
def ReadsFit (reads : List ReadResult) : Prop := ∀ r ∈ reads, ∀ bytes, r = .ok bytes → bytes.length ≤ 32768

/-- A line of output. -/
inductive Line where
  | out (text : String)
  | err (text : String)
deriving DecidableEq

/-- The lines printed, in order, and the exit status. -/
structure Output where
  lines : List Line
  status : Nat

/-- The line for one input file. -/
def Opt.line (o : Opt) (path : String) : Except String (List Byte) → Line
  | .ok data =>
    if o.inputs.length > 1 then .out (String.ofList (hexOf (o.digest data)) ++ "  " ++ path)
    else .out (String.ofList (hexOf (o.digest data)))
  | .error m => .err ("blake2: " ++ path ++ ": " ++ m)

/-- The line for standard input. -/
def Opt.stdinLine (o : Opt) : Except String (List Byte) → Line
  | .ok data => .out (String.ofList (hexOf (o.digest data)))
  | .error m => .err ("blake2: stdin: " ++ m)

/-- Was it an error? -/
def Line.isErr : Line → Bool
  | .out _ => false
  | .err _ => true

/-- The exit status is 1 if anything was reported as an error. -/
def statusOf (lines : List Line) : Nat := if lines.any Line.isErr then 1 else 0

end Blake2.Cli
