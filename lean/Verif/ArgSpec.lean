import Verif.CliSpec
/-!
# Specification of the command line syntax

What the words of a command line of the `blake2` tool say (`blake2 --help`, shown in blake2_bin/README.md). Nothing here refers to the
model.
-/
namespace Blake2.Cli

/-- A word of the command line. -/
abbrev ArgText := List Char

/-- The switches written with one letter: `-b`, `-s`, `-p`. -/
inductive Letter where
  | b | s | p
deriving DecidableEq

/-- The letter itself. -/
def Letter.char : Letter → Char
  | .b => 'b'
  | .s => 's'
  | .p => 'p'

/-- The switches written with a name: `--mmap`, `--last-node`. -/
inductive Switch where
  | mmap | lastNode
deriving DecidableEq

/-- The name itself. -/
def Switch.name : Switch → String
  | .mmap => "mmap"
  | .lastNode => "last-node"

/-- The options that take a value. -/
inductive Valued where
  | length | key | salt | personal | fanout | maxDepth | maxLeafLength | nodeOffset | nodeDepth | innerHashLength
deriving DecidableEq

/-- The name of the option. -/
def Valued.name : Valued → String
  | .length => "length"
  | .key => "key"
  | .salt => "salt"
  | .personal => "personal"
  | .fanout => "fanout"
  | .maxDepth => "max-depth"
  | .maxLeafLength => "max-leaf-length"
  | .nodeOffset => "node-offset"
  | .nodeDepth => "node-depth"
  | .innerHashLength => "inner-hash-length"

/-- One thing said on the command line. -/
inductive Item where
  /-- one or more letters in one word, as in `-sp` -/
  | letters (c : Letter) (cs : List Letter)
  /-- `--mmap`, `--last-node` -/
  | switch (s : Switch)
  /-- `--length=16` -/
  | joined (k : Valued) (v : ArgText)
  /-- `--length 16` -/
  | apart (k : Valued) (v : ArgText)
  /-- the path of an input -/
  | path (w : ArgText)

/-- How it is written. -/
def Item.words : Item → List ArgText
  | .letters c cs => ['-' :: c.char :: cs.map Letter.char]
  | .switch s => ['-' :: '-' :: s.name.toList]
  | .joined k v => ['-' :: '-' :: (k.name.toList ++ '=' :: v)]
  | .apart k v => ['-' :: '-' :: k.name.toList, v]
  | .path w => [w]

/-- A command line: things said in any order, and, possibly, `--` and further paths. -/
structure CommandLine where
  items : List Item
  rest : Option (List ArgText) := none

/-- The words of the command line. -/
def CommandLine.words (l : CommandLine) : List ArgText :=
  l.items.flatMap Item.words ++ match l.rest with | none => [] | some ps => "--".toList :: ps

/-- A word that is not taken for an option: it does not begin with `-`. -/
def Plain (w : ArgText) : Prop := w ≠ [] ∧ ∀ t, w ≠ '-' :: t

/-- The words can be told apart: a value that stands in a word of its own, and a path before `--`, do not begin with `-`; the value
after `=` does not begin with another `=`. -/
def Item.Legible : Item → Prop
  | .joined _ v => v ≠ [] ∧ ∀ t, v ≠ '=' :: t
  | .apart _ v => Plain v
  | .path w => Plain w
  | _ => True

/-- All words can be told apart. -/
def CommandLine.Legible (l : CommandLine) : Prop := ∀ i ∈ l.items, i.Legible

/-- The letters of an item. -/
def Item.letterList : Item → List Letter
  | .letters c cs => c :: cs
  | _ => []

/-- The named switch of an item. -/
def Item.switchList : Item → List Switch
  | .switch s => [s]
  | _ => []

/-- The option and the value of an item. -/
def Item.valueList : Item → List (Valued × ArgText)
  | .joined k v => [(k, v)]
  | .apart k v => [(k, v)]
  | _ => []

/-- The path of an item. -/
def Item.pathList : Item → List ArgText
  | .path w => [w]
  | _ => []

/-- The letters given. -/
def CommandLine.letters (l : CommandLine) : List Letter := l.items.flatMap Item.letterList

/-- The named switches given. -/
def CommandLine.switches (l : CommandLine) : List Switch := l.items.flatMap Item.switchList

/-- The options given, with their values. -/
def CommandLine.values (l : CommandLine) : List (Valued × ArgText) := l.items.flatMap Item.valueList

/-- The paths given, in order. -/
def CommandLine.paths (l : CommandLine) : List ArgText := l.items.flatMap Item.pathList ++ l.rest.getD []

/-- Nothing is said twice. -/
def CommandLine.Once (l : CommandLine) : Prop :=
  l.letters.Nodup ∧ l.switches.Nodup ∧ (l.values.map (·.1)).Nodup

/-- A numeral: the decimal digits of the number, possibly after zeros, possibly after `+`. -/
def Numeral (v : ArgText) (n : Nat) : Prop :=
  ∃ (plus : Bool) (zeros : Nat), v = (if plus then ['+'] else []) ++ (List.replicate zeros '0' ++ Nat.toDigits 10 n)

/-- The option `k` is given with this text, or not at all. -/
def CommandLine.Text (l : CommandLine) (k : Valued) : Option (List Char) → Prop
  | none => ∀ v, (k, v) ∉ l.values
  | some v => (k, v) ∈ l.values

/-- The option `k` is given with this number, or not at all. -/
def CommandLine.Number (l : CommandLine) (k : Valued) : Option Nat → Prop
  | none => ∀ v, (k, v) ∉ l.values
  | some n => ∃ v, (k, v) ∈ l.values ∧ Numeral v n

/-- The command line says these options: every field is what its own option says. Lengths fit in a `usize` of `bits` bits. (That
`--fanout`, `--max-depth` and `--node-depth` fit in 8 bits, `--max-leaf-length` in 32 and `--node-offset` in 64 is in the types of the
fields.) -/
structure CommandLine.Says (l : CommandLine) (bits : Nat) (o : Opt) : Prop where
  inputs : o.inputs = l.paths.map String.ofList
  big : o.big = true ↔ .b ∈ l.letters
  small : o.small = true ↔ .s ∈ l.letters
  parallel : o.parallel = true ↔ .p ∈ l.letters
  mmap : o.mmap = true ↔ .mmap ∈ l.switches
  lastNode : o.lastNode = true ↔ .lastNode ∈ l.switches
  key : l.Text .key o.key
  salt : l.Text .salt o.salt
  personal : l.Text .personal o.personal
  length : l.Number .length o.length
  innerHashLength : l.Number .innerHashLength o.innerHashLength
  fanout : l.Number .fanout (o.fanout.map BitVec.toNat)
  maxDepth : l.Number .maxDepth (o.maxDepth.map BitVec.toNat)
  maxLeafLength : l.Number .maxLeafLength (o.maxLeafLength.map BitVec.toNat)
  nodeOffset : l.Number .nodeOffset (o.nodeOffset.map BitVec.toNat)
  nodeDepth : l.Number .nodeDepth (o.nodeDepth.map BitVec.toNat)
  fits : ∀ n, o.length = some n ∨ o.innerHashLength = some n → n < 2 ^ bits

end Blake2.Cli
