import Verif.ArgSpec
import Verif.Model.Bin
/-!
# Model of the command line: words to `Opt`

`Opt` and its attributes are code of the tool (blake2_bin/src/main.rs 10-74). The parser that `#[derive(StructOpt)]` makes of them
is in the crates `structopt` 0.3 and `clap` 2, which are not in /repo: `parseWords`, `validate` and `parseUnsigned` model what their
documentation (and, for numbers, that of `str::parse`) says, and are a part of the trusted base. Words that are not Unicode are not
modelled.
-/
namespace Blake2.Bin
open Cli

/-- The fields of `Opt` other than `inputs`. main.rs 11-74. -/
inductive Field where
  | mmap | big | small | parallel | length | key | salt | personal | fanout | max_depth | max_leaf_length | node_offset | node_depth
  | inner_hash_length | last_node
deriving DecidableEq

/-- The types of the fields, as far as the parser cares. `bool` is a flag; `Option<String>` takes any value; `Option<u8>` and so on
take a value that must parse as an unsigned number of that many bits. main.rs 17-73. -/
inductive Kind where
  | flag
  | text
  | unsigned (bits : Nat)

/-- A field with its `#[structopt(..)]` attribute. main.rs 15-73. -/
structure Arg where
  field : Field
  kind : Kind
  short : Option Char := none
  long : Option ArgText := none

/-- The fields of `Opt` with their attributes and types. `usize` has `bits` bits. main.rs 15-73. -/
def optArgs (bits : Nat) : List Arg :=
  [{ field := .mmap, long := some "mmap".toList, kind := .flag },
   { field := .big, short := some 'b', kind := .flag },
   { field := .small, short := some 's', kind := .flag },
   { field := .parallel, short := some 'p', kind := .flag },
   { field := .length, long := some "length".toList, kind := .unsigned bits },
   { field := .key, long := some "key".toList, kind := .text },
   { field := .salt, long := some "salt".toList, kind := .text },
   { field := .personal, long := some "personal".toList, kind := .text },
   { field := .fanout, long := some "fanout".toList, kind := .unsigned 8 },
   { field := .max_depth, long := some "max-depth".toList, kind := .unsigned 8 },
   { field := .max_leaf_length, long := some "max-leaf-length".toList, kind := .unsigned 32 },
   { field := .node_offset, long := some "node-offset".toList, kind := .unsigned 64 },
   { field := .node_depth, long := some "node-depth".toList, kind := .unsigned 8 },
   { field := .inner_hash_length, long := some "inner-hash-length".toList, kind := .unsigned bits },
   { field := .last_node, long := some "last-node".toList, kind := .flag }]

/-- Why the program ends before `main` has its options: a usage error (printed on standard error, exit status 1), or `--help` or
`--version` (printed on standard output, exit status 0). `Opt::from_args`, main.rs 351. -/
inductive Stop where
  | usage
  | help
  | version
deriving DecidableEq

/-- What the parser has collected: the options seen, with their values, and the positional words. Crate `clap`, not in /repo; used at
main.rs 351. -/
structure Matches where
  seen : List (Field × Option ArgText) := []
  positional : List ArgText := []

/-- Add an option. Crate `clap`, not in /repo; used at main.rs 351. -/
def Matches.add (m : Matches) (f : Field) (v : Option ArgText) : Matches := { m with seen := m.seen ++ [(f, v)] }

/-- Add a positional word. `inputs: Vec<PathBuf>` takes them all. Crate `clap`, not in /repo; used at main.rs 13, 351. -/
def Matches.addPos (m : Matches) (w : ArgText) : Matches := { m with positional := m.positional ++ [w] }

/-- A word of letters, as in `-sp`. `-h` and `-V` are added by `clap`. No option of the tool that takes a value has a letter.
Crate `clap`, not in /repo; used at main.rs 351. -/
def parseShort (args : List Arg) : List Char → Matches → Except Stop Matches
  | [], m => .ok m
  | c :: cs, m =>
    if c = 'h' then .error .help
    else if c = 'V' then .error .version
    else match args.find? fun a => a.short = some c with
      | some a => parseShort args cs (m.add a.field none)
      | none => .error .usage

/-- A word `--name` or `--name=value`, without the dashes; returns the option that still needs its value, too. (`clap` removes every
further dash in front, and every further `=` in front of the value, and ignores a value given to a flag; nothing is proved about such words.)
Crate `clap`, not in /repo; used at main.rs 351. -/
def parseLong (args : List Arg) (body : ArgText) (m : Matches) : Except Stop (Matches × Option Field) :=
  let body := body.dropWhile (· = '-')
  let name := body.takeWhile (· ≠ '=')
  let value : Option ArgText := if '=' ∈ body then some ((body.dropWhile (· ≠ '=')).dropWhile (· = '=')) else none
  if name = "help".toList then .error .help
  else if name = "version".toList then .error .version
  else match args.find? fun a => a.long = some name with
    | none => .error .usage
    | some a =>
      match a.kind with
      | .flag => .ok (m.add a.field none, none)
      | _ =>
        match value with
        | some v => .ok (m.add a.field (some v), none)
        | none => .ok (m, some a.field)

/-- The words from left to right. `needs` is an option that stands before, without its value. (What becomes of an option followed by
another instead of its value differs between versions of `clap`; here it is an error, and nothing is proved about it.)
Crate `clap`, not in /repo; used at main.rs 351. -/
def parseWords (args : List Arg) : (needs : Option Field) → List ArgText → Matches → Except Stop Matches
  | none, [], m => .ok m
  | some _, [], _ => .error .usage
  | needs, w :: ws, m =>
    match w with
    | ['-', '-'] => if needs.isSome then .error .usage else .ok (ws.foldl Matches.addPos m)
    | '-' :: '-' :: body =>
      if needs.isSome then .error .usage
      else match parseLong args body m with
        | .error e => .error e
        | .ok (m, needs) => parseWords args needs ws m
    | '-' :: c :: cs =>
      if needs.isSome then .error .usage
      else match parseShort args (c :: cs) m with
        | .error e => .error e
        | .ok m => parseWords args none ws m
    | w =>
      match needs with
      | some f => parseWords args none ws (m.add f (some w))
      | none => parseWords args none ws (m.addPos w)

/-- The value of a digit. `char::to_digit(10)`, `core`; used at main.rs 33-69 through `FromStr`. -/
def digit? (c : Char) : Option Nat := if '0' ≤ c ∧ c ≤ '9' then some (c.toNat - '0'.toNat) else none

/-- The digits of a number, from the most significant one; `none` if one is not a digit. Overflow is checked at the end: the value only grows.
`core::num::from_str_radix`; used at main.rs 33-69 through `FromStr`. -/
def parseDigits : ArgText → Nat → Option Nat
  | [], n => some n
  | c :: cs, n => (digit? c).bind fun d => parseDigits cs (10 * n + d)

/-- A leading `+` is allowed. `core::num::from_str_radix`; used at main.rs 33-69 through `FromStr`. -/
def stripPlus : ArgText → ArgText
  | '+' :: t => t
  | v => v

/-- `str::parse::<uN>()`: an optional `+`, then at least one digit, and the value must fit. `core::num`; used at
main.rs 33-69 through `FromStr`. -/
def parseUnsigned (bits : Nat) (v : ArgText) : Option Nat :=
  if stripPlus v = [] then none
  else (parseDigits (stripPlus v) 0).bind fun n => if n < 2 ^ bits then some n else none

/-- The value of an option. `value_of` of crate `clap`, not in /repo; used at main.rs 351. -/
def Matches.value (m : Matches) (f : Field) : Option ArgText := (m.seen.find? fun x => x.1 = f).bind (·.2)

/-- Whether a flag is given. `is_present` of crate `clap`, not in /repo; used at main.rs 351. -/
def Matches.present (m : Matches) (f : Field) : Bool := m.seen.any fun x => x.1 = f

/-- After the last word: no option may be given twice (none has the type `Vec`), and numbers must parse.
Crates `clap` and `structopt`, not in /repo; used at main.rs 351. -/
def validate (args : List Arg) (m : Matches) : Bool :=
  decide (m.seen.map (·.1)).Nodup && args.all fun a =>
    match a.kind, m.value a.field with
    | .unsigned bits, some v => (parseUnsigned bits v).isSome
    | _, _ => true

/-- The `Opt` made of what was collected: each field from the option of its own name. `from_clap`, derived at main.rs 10 for the fields
at 11-74. -/
def fromMatches (bits : Nat) (m : Matches) : Opt :=
  { inputs := m.positional.map String.ofList
    mmap := m.present .mmap
    big := m.present .big
    small := m.present .small
    parallel := m.present .parallel
    length := (m.value .length).bind (parseUnsigned bits)
    key := m.value .key
    salt := m.value .salt
    personal := m.value .personal
    fanout := ((m.value .fanout).bind (parseUnsigned 8)).map (BitVec.ofNat 8)
    maxDepth := ((m.value .max_depth).bind (parseUnsigned 8)).map (BitVec.ofNat 8)
    maxLeafLength := ((m.value .max_leaf_length).bind (parseUnsigned 32)).map (BitVec.ofNat 32)
    nodeOffset := ((m.value .node_offset).bind (parseUnsigned 64)).map (BitVec.ofNat 64)
    nodeDepth := ((m.value .node_depth).bind (parseUnsigned 8)).map (BitVec.ofNat 8)
    innerHashLength := (m.value .inner_hash_length).bind (parseUnsigned bits)
    lastNode := m.present .last_node }

/-- `Opt::from_args`, on the words after the name of the program. main.rs 351. -/
def parseArgs (bits : Nat) (words : List ArgText) : Except Stop Opt :=
  match parseWords (optArgs bits) none words {} with
  | .error e => .error e
  | .ok m => if validate (optArgs bits) m then .ok (fromMatches bits m) else .error .usage

/-- What a run of the program prints: what `main` prints, or what the parser prints on the standard output (`--help`, `--version`) or on the
standard error, of which only the exit status is modelled. main.rs 350-390. -/
inductive Ran where
  | main (out : Output)
  | parser (why : Stop) (status : Nat)

/-- The whole program. main.rs 350-390. -/
def program (e : Machine) (w : World) (words : List ArgText) (stdin : List ReadResult) (files : List OsFile) : Res Ran :=
  match parseArgs w.ptrBits words with
  | .ok o => do
    let out ← main e w o stdin files
    .ok (.main out)
  | .error .usage => .ok (.parser .usage 1)
  | .error why => .ok (.parser why 0)

/-- The command lines of the tests that read standard input, in the order of `stdinTests`. blake2_bin/tests/test.rs 12, 91, 101-114, 126-139,
150, 161. -/
def stdinTestWords : List (List ArgText) :=
  [["--length=16"], ["--length=16", "--last-node"],
   ["-b", "--length=18", "--key=626172", "--salt=62617a62617a62617a62617a62617a62", "--personal=62696e672062696e672062696e672062",
    "--fanout=2", "--max-depth=3", "--max-leaf-length=67438087", "--node-offset=579005069656919567", "--node-depth=16",
    "--inner-hash-length=17", "--last-node"],
   ["-s", "--length=18", "--key=626172", "--salt=62617a62617a6261", "--personal=62696e672062696e", "--fanout=2", "--max-depth=3",
    "--max-leaf-length=67438087", "--node-offset=8834916224013", "--node-depth=16", "--inner-hash-length=17", "--last-node"],
   ["-bp", "--length=18", "--key=626172"], ["-sp", "--length=18", "--key=626172"]].map fun l => l.map String.toList

/-- The command lines of the tests that read a file, in the order of `fileTests`; the path comes last. blake2_bin/tests/test.rs 24, 35, 82
(three vectors). -/
def fileTestWords : List (List ArgText) :=
  [["--length=16"], ["--length=16", "--mmap"], ["-bp"], ["-bp"], ["-bp"]].map fun l => l.map String.toList

end Blake2.Bin
