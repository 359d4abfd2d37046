import Verif.Proofs.Args
import Verif.Model.CliTests
import Verif.Properties.Cli
/-!
# The words of the command line: C65
-/
namespace Blake2
open Spec Cli

/-- **C65.** A command line is accepted, with options `o`, iff nothing is said twice and it says `o`: every field of `o` is what its own
option says, in whatever order and spelling, numbers in decimal and within the range of the field. -/
theorem C65_command_line (bits : Nat) (l : CommandLine) (hl : l.Legible) (o : Opt) :
    Bin.parseArgs bits l.words = .ok o ↔ l.Once ∧ l.Says bits o := Bin.parseArgs_iff bits l hl o

/-- A command line with every kind of item: `-sp --length 16 a.txt --key=00ff --mmap -- --mmap`. -/
def sampleLine : CommandLine :=
  { items := [.letters .s [.p], .apart .length "16".toList, .path "a.txt".toList, .joined .key "00ff".toList, .switch .mmap]
    rest := some ["--mmap".toList] }

theorem sampleLine_legible : sampleLine.Legible := by simp [CommandLine.Legible, sampleLine, Item.Legible, Plain]

example : sampleLine.words.map String.ofList = ["-sp", "--length", "16", "a.txt", "--key=00ff", "--mmap", "--", "--mmap"] := by decide

/-- It says: BLAKE2sp, 16 bytes, that key, memory mapping, and two inputs. -/
theorem sampleLine_says : sampleLine.Once ∧ sampleLine.Says 64
    { inputs := ["a.txt", "--mmap"], mmap := true, small := true, parallel := true, length := some 16, key := some "00ff".toList } :=
  (C65_command_line 64 sampleLine sampleLine_legible _).mp rfl

/-- `--fanout 256` is out of range; so is a second `-s`. -/
example : Bin.parseArgs 64 ["--fanout".toList, "256".toList] = .error .usage ∧
    Bin.parseArgs 64 ["--fanout".toList, "+0255".toList] = .ok { fanout := some 255 } ∧
    Bin.parseArgs 64 ["-sp".toList, "-s".toList] = .error .usage := ⟨rfl, rfl, rfl⟩

/-- **C65.** Any other legible command line is a usage error: the program exits with status 1, whatever its inputs, and `main` does not run. -/
theorem C65_usage_error (e : Machine) (w : World) (l : CommandLine) (hl : l.Legible) (stdin : List ReadResult) (files : List OsFile) :
    (¬ ∃ o, l.Once ∧ l.Says w.ptrBits o) ↔ Bin.program e w l.words stdin files = .ok (.parser .usage 1) := by
  rw [← Bin.parseArgs_usage w.ptrBits l hl]
  unfold Bin.program
  constructor
  · intro h; rw [h]
  · intro h
    split at h
    next o _ =>
      cases hm : Bin.main e w o stdin files with
      | error f => rw [hm] at h; cases h
      | ok out => rw [hm] at h; cases h
    next h' => exact h'
    next h' =>
      injection h with h; injection h with _ h; cases h

/-- `--length` given twice. -/
example (e : Machine) (w : World) (stdin : List ReadResult) (files : List OsFile) :
    Bin.program e w ["--length".toList, "16".toList, "--length=17".toList] stdin files = .ok (.parser .usage 1) :=
  (C65_usage_error e w { items := [.apart .length "16".toList, .joined .length "17".toList] }
    (by simp [CommandLine.Legible, Item.Legible, Plain]) stdin files).1 fun ⟨_, h, _⟩ => absurd h.2.2 (by decide)

/-- **C65.** The order of the options does not matter, nor whether letters share a word or a value is joined by `=`: two legible
lines with the same options in any order and spelling, and the same paths in the same order, are the same to the program. -/
theorem C65_order (e : Machine) (w : World) (l l' : CommandLine) (hl : l.Legible) (hl' : l'.Legible) (hp : l.paths = l'.paths)
    (h1 : l.letters.Perm l'.letters) (h2 : l.switches.Perm l'.switches) (h3 : l.values.Perm l'.values)
    (stdin : List ReadResult) (files : List OsFile) :
    Bin.program e w l.words stdin files = Bin.program e w l'.words stdin files := by
  have once : l.Once ↔ l'.Once := by
    unfold CommandLine.Once
    rw [h1.nodup_iff, h2.nodup_iff, (h3.map _).nodup_iff]
  have text : ∀ k x, l.Text k x ↔ l'.Text k x := by
    intro k x
    cases x with
    | none => exact forall_congr' fun v => not_congr h3.mem_iff
    | some v => exact h3.mem_iff
  have number : ∀ k x, l.Number k x ↔ l'.Number k x := by
    intro k x
    cases x with
    | none => exact forall_congr' fun v => not_congr h3.mem_iff
    | some v => exact exists_congr fun v => and_congr_left' h3.mem_iff
  have says : ∀ o, l.Says w.ptrBits o ↔ l'.Says w.ptrBits o := by
    intro o
    constructor
    · intro h
      exact ⟨hp ▸ h.inputs, h.big.trans h1.mem_iff, h.small.trans h1.mem_iff, h.parallel.trans h1.mem_iff, h.mmap.trans h2.mem_iff,
        h.lastNode.trans h2.mem_iff, (text _ _).mp h.key, (text _ _).mp h.salt, (text _ _).mp h.personal, (number _ _).mp h.length,
        (number _ _).mp h.innerHashLength, (number _ _).mp h.fanout, (number _ _).mp h.maxDepth, (number _ _).mp h.maxLeafLength,
        (number _ _).mp h.nodeOffset, (number _ _).mp h.nodeDepth, h.fits⟩
    · intro h
      exact ⟨hp ▸ h.inputs, h.big.trans h1.mem_iff.symm, h.small.trans h1.mem_iff.symm, h.parallel.trans h1.mem_iff.symm,
        h.mmap.trans h2.mem_iff.symm,
        h.lastNode.trans h2.mem_iff.symm, (text _ _).mpr h.key, (text _ _).mpr h.salt, (text _ _).mpr h.personal, (number _ _).mpr h.length,
        (number _ _).mpr h.innerHashLength, (number _ _).mpr h.fanout, (number _ _).mpr h.maxDepth, (number _ _).mpr h.maxLeafLength,
        (number _ _).mpr h.nodeOffset, (number _ _).mpr h.nodeDepth, h.fits⟩
  have same : Bin.parseArgs w.ptrBits l.words = Bin.parseArgs w.ptrBits l'.words := by
    by_cases h : ∃ o, l.Once ∧ l.Says w.ptrBits o
    · obtain ⟨o, h⟩ := h
      rw [(C65_command_line _ l hl o).mpr h, (C65_command_line _ l' hl' o).mpr ⟨once.mp h.1, (says o).mp h.2⟩]
    · rw [(Bin.parseArgs_usage _ l hl).mpr h, (Bin.parseArgs_usage _ l' hl').mpr]
      rintro ⟨o, h'⟩
      exact h ⟨o, once.mpr h'.1, (says o).mpr h'.2⟩
  unfold Bin.program
  rw [same]

example (e : Machine) (w : World) (stdin : List ReadResult) (files : List OsFile) :
    Bin.program e w ["-sp".toList, "--length".toList, "16".toList, "--mmap".toList] stdin files =
      Bin.program e w ["--mmap".toList, "--length=16".toList, "-p".toList, "-s".toList] stdin files :=
  C65_order e w { items := [.letters .s [.p], .apart .length "16".toList, .switch .mmap] }
    { items := [.switch .mmap, .joined .length "16".toList, .letters .p [], .letters .s []] }
    (by simp [CommandLine.Legible, Item.Legible, Plain]) (by simp [CommandLine.Legible, Item.Legible, Plain]) rfl
    (by decide) (by decide) (by decide) stdin files

/-- **C65.** From the words to the hash. If the command line says acceptable options and no paths, and not `--mmap`, then whatever arrives on
standard input, in whatever pieces, the program prints the digest with those options, in hexadecimal, and exits with status 0. -/
theorem C65_stdin (e : Machine) (w : World) (l : CommandLine) (hl : l.Legible) (o : Opt) (h1 : l.Once) (hs : l.Says w.ptrBits o)
    (ho : o.problem w = none) (hp : l.paths = []) (hm : .mmap ∉ l.switches)
    (stdin : List ReadResult) (hf : ReadsFit stdin) (data : List Byte) (hr : readOutcome stdin = some (.ok data)) (files : List OsFile) :
    Bin.program e w l.words stdin files =
      .ok (.main { lines := [.out (String.ofList (hexOf (o.digest data)))], status := 0 }) := by
  have hi : o.inputs = [] := by rw [hs.inputs, hp]; rfl
  have hm' : o.mmap = false := by
    cases h : o.mmap with
    | false => rfl
    | true => exact absurd (hs.mmap.mp h) hm
  unfold Bin.program
  rw [(C65_command_line _ l hl o).mpr ⟨h1, hs⟩]
  simp only
  rw [C27_stdin e w o ho hi stdin hf files _ hr, hm', if_neg (by decide)]
  rfl

example (e : Machine) (m : List Char → String) :
    Bin.program e ⟨m, 64⟩ ["-sp".toList, "--length".toList, "16".toList] [.ok [1, 2], .interrupted, .ok [3], .ok []] [] =
      .ok (.main { lines := [.out (String.ofList (hexOf (({ small := true, parallel := true, length := some 16 } : Opt).digest [1, 2, 3])))], status := 0 }) :=
  C65_stdin e ⟨m, 64⟩ { items := [.letters .s [.p], .apart .length "16".toList] } (by simp [CommandLine.Legible, Item.Legible, Plain])
    { small := true, parallel := true, length := some 16 }
    ((C65_command_line 64 _ (by simp [CommandLine.Legible, Item.Legible, Plain]) _).mp rfl).1
    ((C65_command_line 64 _ (by simp [CommandLine.Legible, Item.Legible, Plain]) _).mp rfl).2
    rfl rfl (by decide) _ (by simp [ReadsFit]) [1, 2, 3] rfl []

/-- **C65.** With paths: the lines of `C27_files`, for the paths of the command line. -/
theorem C65_files (e : Machine) (w : World) (l : CommandLine) (hl : l.Legible) (o : Opt) (h1 : l.Once) (hs : l.Says w.ptrBits o)
    (ho : o.problem w = none) (hp : l.paths ≠ []) (stdin : List ReadResult)
    (files : List OsFile) (hn : files.length = l.paths.length) (hf : ∀ f ∈ files, ReadsFit f.reads)
    (rs : List (Except String (List Byte))) (hr : files.map (OsFile.content w o.mmap) = rs.map some) :
    Bin.program e w l.words stdin files =
      .ok (.main { lines := List.zipWith o.line (l.paths.map String.ofList) rs
                   status := statusOf (List.zipWith o.line (l.paths.map String.ofList) rs) }) := by
  unfold Bin.program
  rw [(C65_command_line _ l hl o).mpr ⟨h1, hs⟩]
  simp only
  rw [C27_files e w o ho (by rw [hs.inputs]; simpa using hp) stdin files (by rw [hs.inputs]; simpa using hn) hf rs hr, hs.inputs]
  rfl

example (e : Machine) (m : List Char → String) (f : Nat → Except String (List Byte)) :
    Bin.program e ⟨m, 64⟩ ["-s".toList, "a.txt".toList] []
      [{ openError := none, reads := [.ok [1, 2], .ok []], metadata := .error "", map := f }] =
      .ok (.main { lines := [.out (String.ofList (hexOf (({ small := true } : Opt).digest [1, 2])))], status := 0 }) :=
  C65_files e ⟨m, 64⟩ { items := [.letters .s [], .path "a.txt".toList] } (by simp [CommandLine.Legible, Item.Legible, Plain])
    { small := true, inputs := ["a.txt"] }
    ((C65_command_line 64 _ (by simp [CommandLine.Legible, Item.Legible, Plain]) _).mp rfl).1
    ((C65_command_line 64 _ (by simp [CommandLine.Legible, Item.Legible, Plain]) _).mp rfl).2
    rfl (by decide) [] _ rfl (by simp [ReadsFit]) [.ok [1, 2]] rfl

/-- **C65.** `--help`, `-h`, `--version` and `-V` after any legible words, and before any words whatever: the program prints that and
exits with status 0, and nothing is hashed. -/
theorem C65_help (e : Machine) (w : World) (items : List Item) (hl : ∀ i ∈ items, i.Legible) (more : List ArgText)
    (stdin : List ReadResult) (files : List OsFile) (word : String) (why : Bin.Stop)
    (h : (word, why) ∈ [("--help", Bin.Stop.help), ("-h", .help), ("--version", .version), ("-V", .version)]) :
    Bin.program e w (items.flatMap Item.words ++ word.toList :: more) stdin files = .ok (.parser why 0) := by
  have hw : ∀ m, Bin.parseWords (Bin.optArgs w.ptrBits) none (word.toList :: more) m = .error why ∧ why ≠ .usage := by
    intro m
    simp only [List.mem_cons, Prod.mk.injEq, List.not_mem_nil, or_false] at h
    rcases h with ⟨rfl, rfl⟩ | ⟨rfl, rfl⟩ | ⟨rfl, rfl⟩ | ⟨rfl, rfl⟩ <;> exact ⟨rfl, by decide⟩
  unfold Bin.program Bin.parseArgs
  rw [Bin.parseWords_items _ items hl, (hw _).1]
  have := (hw {}).2
  cases why with
  | usage => exact absurd rfl this
  | help => rfl
  | version => rfl

example (e : Machine) (w : World) (stdin : List ReadResult) (files : List OsFile) :
    Bin.program e w ["-s".toList, "--help".toList, "--nonsense".toList] stdin files = .ok (.parser .help 0) :=
  C65_help e w [.letters .s []] (by simp [Item.Legible]) ["--nonsense".toList] stdin files "--help" .help (by decide)

/-- **C65.** An option at the end of the line without its value, and a letter or a name that is no option, are usage errors. -/
theorem C65_malformed (e : Machine) (w : World) (items : List Item) (hl : ∀ i ∈ items, i.Legible) (more : List ArgText)
    (stdin : List ReadResult) (files : List OsFile) :
    (∀ k : Valued, Bin.program e w (items.flatMap Item.words ++ ['-' :: '-' :: k.name.toList]) stdin files = .ok (.parser .usage 1)) ∧
    (∀ name : List Char, '=' ∉ name → '-' ∉ name.head? → name ≠ [] →
      (∀ k : Valued, name ≠ k.name.toList) → (∀ s : Switch, name ≠ s.name.toList) → name ≠ "help".toList → name ≠ "version".toList →
      Bin.program e w (items.flatMap Item.words ++ ('-' :: '-' :: name) :: more) stdin files = .ok (.parser .usage 1)) ∧
    (∀ c : Char, c ≠ '-' → c ≠ 'h' → c ≠ 'V' → (∀ d : Letter, c ≠ d.char) → ∀ cs,
      Bin.program e w (items.flatMap Item.words ++ ('-' :: c :: cs) :: more) stdin files = .ok (.parser .usage 1)) := by
  refine ⟨fun k => ?_, fun name he hd hn hk hs hh hv => ?_, fun c hc hh hv hd cs => ?_⟩
  · unfold Bin.program Bin.parseArgs
    rw [Bin.parseWords_items _ items hl, Bin.parseWords_long _ _ (Bin.name_facts k).2.2.2.2, Bin.parseLong_apart]
    rfl
  · have hdrop : name.dropWhile (· = '-') = name := by
      cases name with
      | nil => rfl
      | cons c t =>
        have : c ≠ '-' := by rintro rfl; exact hd (by simp)
        simp [this]
    have htake : name.takeWhile (· ≠ '=') = name := by
      have := List.takeWhile_append_of_pos (p := fun x => decide (x ≠ '=')) (l₁ := name) (l₂ := [])
        (fun x hx => by simp only [ne_eq, decide_eq_true_eq]; rintro rfl; exact he hx)
      simpa using this
    have hfind : (Bin.optArgs w.ptrBits).find? (fun a => decide (a.long = some name)) = none := by
      rw [List.find?_eq_none]
      intro a ha
      simp only [Bin.optArgs, List.mem_cons, List.not_mem_nil, or_false] at ha
      simp only [decide_eq_true_eq]
      rcases ha with rfl | rfl | rfl | rfl | rfl | rfl | rfl | rfl | rfl | rfl | rfl | rfl | rfl | rfl | rfl <;> intro h
      · injection h with h; exact hs .mmap h.symm
      · cases h
      · cases h
      · cases h
      · injection h with h; exact hk .length h.symm
      · injection h with h; exact hk .key h.symm
      · injection h with h; exact hk .salt h.symm
      · injection h with h; exact hk .personal h.symm
      · injection h with h; exact hk .fanout h.symm
      · injection h with h; exact hk .maxDepth h.symm
      · injection h with h; exact hk .maxLeafLength h.symm
      · injection h with h; exact hk .nodeOffset h.symm
      · injection h with h; exact hk .nodeDepth h.symm
      · injection h with h; exact hk .innerHashLength h.symm
      · injection h with h; exact hs .lastNode h.symm
    have hlong : ∀ m, Bin.parseLong (Bin.optArgs w.ptrBits) name m = .error .usage := by
      intro m
      unfold Bin.parseLong
      simp only [hdrop, htake, if_neg hh, if_neg hv, hfind]
    unfold Bin.program Bin.parseArgs
    rw [Bin.parseWords_items _ items hl, Bin.parseWords_long _ _ hn, hlong]
  · have hfind : (Bin.optArgs w.ptrBits).find? (fun a => decide (a.short = some c)) = none := by
      rw [List.find?_eq_none]
      intro a ha
      simp only [Bin.optArgs, List.mem_cons, List.not_mem_nil, or_false] at ha
      simp only [decide_eq_true_eq]
      rcases ha with rfl | rfl | rfl | rfl | rfl | rfl | rfl | rfl | rfl | rfl | rfl | rfl | rfl | rfl | rfl <;> intro h <;>
        first
        | cases h; done
        | (injection h with h; first | exact hd .b h.symm | exact hd .s h.symm | exact hd .p h.symm)
    unfold Bin.program Bin.parseArgs
    rw [Bin.parseWords_items _ items hl, Bin.parseWords_short _ _ hc]
    unfold Bin.parseShort
    rw [if_neg hh, if_neg hv, hfind]

example (e : Machine) (w : World) (stdin : List ReadResult) (files : List OsFile) :
    Bin.program e w ["-s".toList, "--length".toList] stdin files = .ok (.parser .usage 1) ∧
    Bin.program e w ["-s".toList, "-x".toList, "a.txt".toList] stdin files = .ok (.parser .usage 1) :=
  ⟨(C65_malformed e w [.letters .s []] (by simp [Item.Legible]) [] stdin files).1 .length,
    (C65_malformed e w [.letters .s []] (by simp [Item.Legible]) ["a.txt".toList] stdin files).2.2 'x' (by decide) (by decide) (by decide)
      (fun d => by cases d <;> decide) []⟩

/-- A legible line that says given options: the paths come after `--`, so they may be anything. -/
def lineFor (o : Opt) : CommandLine :=
  let num (k : Valued) (x : Option Nat) : List Item := x.toList.map fun n => .joined k (Nat.toDigits 10 n)
  let txt (k : Valued) (x : Option (List Char)) : List Item := x.toList.map fun v => .joined k v
  { items :=
      (if o.big then [.letters .b []] else []) ++ (if o.small then [.letters .s []] else []) ++
      (if o.parallel then [.letters .p []] else []) ++ (if o.mmap then [.switch .mmap] else []) ++
      (if o.lastNode then [.switch .lastNode] else []) ++
      txt .key o.key ++ txt .salt o.salt ++ txt .personal o.personal ++ num .length o.length ++ num .innerHashLength o.innerHashLength ++
      num .fanout (o.fanout.map BitVec.toNat) ++ num .maxDepth (o.maxDepth.map BitVec.toNat) ++
      num .maxLeafLength (o.maxLeafLength.map BitVec.toNat) ++ num .nodeOffset (o.nodeOffset.map BitVec.toNat) ++
      num .nodeDepth (o.nodeDepth.map BitVec.toNat)
    rest := some (o.inputs.map String.toList) }

theorem lineFor_values (o : Opt) : (lineFor o).values =
    o.key.toList.map (fun v => (.key, v)) ++ o.salt.toList.map (fun v => (.salt, v)) ++ o.personal.toList.map (fun v => (.personal, v)) ++
    o.length.toList.map (fun n => (.length, Nat.toDigits 10 n)) ++
    o.innerHashLength.toList.map (fun n => (.innerHashLength, Nat.toDigits 10 n)) ++
    (o.fanout.map BitVec.toNat).toList.map (fun n => (.fanout, Nat.toDigits 10 n)) ++
    (o.maxDepth.map BitVec.toNat).toList.map (fun n => (.maxDepth, Nat.toDigits 10 n)) ++
    (o.maxLeafLength.map BitVec.toNat).toList.map (fun n => (.maxLeafLength, Nat.toDigits 10 n)) ++
    (o.nodeOffset.map BitVec.toNat).toList.map (fun n => (.nodeOffset, Nat.toDigits 10 n)) ++
    (o.nodeDepth.map BitVec.toNat).toList.map (fun n => (.nodeDepth, Nat.toDigits 10 n)) := by
  have hv : ∀ (k : Valued) (x : Option Nat), (x.toList.map fun n => Item.joined k (Nat.toDigits 10 n)).flatMap Item.valueList =
      x.toList.map fun n => (k, Nat.toDigits 10 n) := by
    intro k x; cases x <;> rfl
  have ht : ∀ (k : Valued) (x : Option (List Char)), (x.toList.map fun v => Item.joined k v).flatMap Item.valueList =
      x.toList.map fun v => (k, v) := by
    intro k x; cases x <;> rfl
  have hb : ∀ (b : Bool) (i : Item), i.valueList = [] → (if b then [i] else []).flatMap Item.valueList = [] := by
    intro b i h; cases b <;> simp [h]
  unfold CommandLine.values lineFor
  simp only [List.flatMap_append, hv, ht]
  rw [hb _ _ rfl, hb _ _ rfl, hb _ _ rfl, hb _ _ rfl, hb _ _ rfl]
  simp only [List.nil_append]

theorem lineFor_switches (o : Opt) : (lineFor o).switches = (if o.mmap then [.mmap] else []) ++ (if o.lastNode then [.lastNode] else []) := by
  have hv : ∀ {α : Type} (x : Option α) (f : α → Item), (∀ y, (f y).switchList = []) → (x.toList.map f).flatMap Item.switchList = [] := by
    intro α x f h; cases x <;> simp [h]
  have hb : ∀ (b : Bool) (i : Item), (if b then [i] else []).flatMap Item.switchList = if b then i.switchList else [] := by
    intro b i; cases b <;> simp
  unfold CommandLine.switches lineFor
  simp only [List.flatMap_append, hb]
  rw [hv, hv, hv, hv, hv, hv, hv, hv, hv, hv]
  · simp [Item.switchList]
  all_goals exact fun _ => rfl

theorem lineFor_letters (o : Opt) : (lineFor o).letters = (if o.big then [.b] else []) ++ (if o.small then [.s] else []) ++
    (if o.parallel then [.p] else []) := by
  have hv : ∀ {α : Type} (x : Option α) (f : α → Item), (∀ y, (f y).letterList = []) → (x.toList.map f).flatMap Item.letterList = [] := by
    intro α x f h; cases x <;> simp [h]
  have hb : ∀ (b : Bool) (i : Item), (if b then [i] else []).flatMap Item.letterList = if b then i.letterList else [] := by
    intro b i; cases b <;> simp
  unfold CommandLine.letters lineFor
  simp only [List.flatMap_append, hb]
  rw [hv, hv, hv, hv, hv, hv, hv, hv, hv, hv]
  · simp [Item.letterList]
  all_goals exact fun _ => rfl

theorem lineFor_paths (o : Opt) : (lineFor o).paths = o.inputs.map String.toList := by
  have hv : ∀ {α : Type} (x : Option α) (f : α → Item), (∀ y, (f y).pathList = []) → (x.toList.map f).flatMap Item.pathList = [] := by
    intro α x f h; cases x <;> simp [h]
  have hb : ∀ (b : Bool) (i : Item), (if b then [i] else []).flatMap Item.pathList = if b then i.pathList else [] := by
    intro b i; cases b <;> simp
  unfold CommandLine.paths lineFor
  simp only [List.flatMap_append, hb]
  rw [hv, hv, hv, hv, hv, hv, hv, hv, hv, hv]
  · simp [Item.pathList]
  all_goals exact fun _ => rfl

/-- **C65.** No setting of the options is out of reach: for all options whose lengths fit in a `usize`, and with any paths, there is a
command line that is understood as just these. (A hexadecimal option that is given must have a text.) -/
theorem C65_every_option (bits : Nat) (o : Opt)
    (fits : ∀ n, o.length = some n ∨ o.innerHashLength = some n → n < 2 ^ bits)
    (texts : ∀ t, o.key = some t ∨ o.salt = some t ∨ o.personal = some t → t ≠ [] ∧ '=' ∉ t.head?) :
    ∃ l : CommandLine, l.Legible ∧ Bin.parseArgs bits l.words = .ok o := by
  have legible : (lineFor o).Legible := by
    have hd : ∀ k n, (Item.joined k (Nat.toDigits 10 n)).Legible := by
      refine fun k n => ⟨Bin.toDigits_ne_nil n, fun t h => ?_⟩
      have := Bin.parseDigits_toDigits n
      rw [h, Bin.parseDigits, show Bin.digit? '=' = none from rfl] at this
      cases this
    have ht : ∀ k t, o.key = some t ∨ o.salt = some t ∨ o.personal = some t → (Item.joined k t).Legible := by
      refine fun k t h => ⟨(texts t h).1, fun u e => (texts t h).2 ?_⟩
      rw [e]; simp
    intro i hi
    unfold lineFor at hi
    simp only [List.mem_append, List.mem_map, Option.mem_toList] at hi
    have hb : ∀ (b : Bool) (j : Item), j.Legible → i ∈ (if b then [j] else []) → i.Legible := by
      intro b j hj h; cases b <;> simp_all
    rcases hi with ((((((((((((((h | h) | h) | h) | h) | h) | h) | h) | h) | h) | h) | h) | h) | h) | h)
    · exact hb _ _ (by exact trivial) h
    · exact hb _ _ (by exact trivial) h
    · exact hb _ _ (by exact trivial) h
    · exact hb _ _ (by exact trivial) h
    · exact hb _ _ (by exact trivial) h
    · obtain ⟨t, h, rfl⟩ := h; exact ht _ t (.inl h)
    · obtain ⟨t, h, rfl⟩ := h; exact ht _ t (.inr (.inl h))
    · obtain ⟨t, h, rfl⟩ := h; exact ht _ t (.inr (.inr h))
    all_goals (obtain ⟨t, h, rfl⟩ := h; exact hd _ t)
  refine ⟨lineFor o, legible, (C65_command_line bits _ legible o).mpr ⟨⟨?_, ?_, ?_⟩, ?_⟩⟩
  · rw [lineFor_letters]
    cases o.big <;> cases o.small <;> cases o.parallel <;> decide
  · rw [lineFor_switches]
    cases o.mmap <;> cases o.lastNode <;> decide
  · have hsub : ∀ {α : Type} (x : Option α) (k : Valued) (f : α → ArgText),
        ((x.toList.map fun v => (k, f v)).map (·.1)).Sublist [k] := by
      intro α x k f; cases x <;> simp
    have all : ([.key, .salt, .personal, .length, .innerHashLength, .fanout, .maxDepth, .maxLeafLength, .nodeOffset, .nodeDepth] :
        List Valued).Nodup := by decide
    rw [lineFor_values]
    refine List.Nodup.sublist ?_ all
    simp only [List.map_append]
    exact (((((((((hsub _ .key _).append (hsub _ .salt _)).append (hsub _ .personal _)).append (hsub _ .length _)).append
      (hsub _ .innerHashLength _)).append (hsub _ .fanout _)).append (hsub _ .maxDepth _)).append (hsub _ .maxLeafLength _)).append
      (hsub _ .nodeOffset _)).append (hsub _ .nodeDepth _)
  · have txt : ∀ k (x : Option (List Char)), (∀ v, (k, v) ∈ (lineFor o).values ↔ x = some v) → (lineFor o).Text k x := by
      intro k x h
      cases x with
      | none => intro v hv; exact absurd ((h v).mp hv) (by simp)
      | some v => exact (h v).mpr rfl
    have num : ∀ k (x : Option Nat), (∀ v, (k, v) ∈ (lineFor o).values ↔ ∃ n, x = some n ∧ v = Nat.toDigits 10 n) → (lineFor o).Number k x := by
      intro k x h
      cases x with
      | none => intro v hv; obtain ⟨n, hn, _⟩ := (h v).mp hv; cases hn
      | some n => exact ⟨_, (h _).mpr ⟨n, rfl, rfl⟩, false, 0, by simp⟩
    exact {
      inputs := by rw [lineFor_paths]; simp
      big := by rw [lineFor_letters]; cases o.big <;> cases o.small <;> cases o.parallel <;> decide
      small := by rw [lineFor_letters]; cases o.big <;> cases o.small <;> cases o.parallel <;> decide
      parallel := by rw [lineFor_letters]; cases o.big <;> cases o.small <;> cases o.parallel <;> decide
      mmap := by rw [lineFor_switches]; cases o.mmap <;> cases o.lastNode <;> decide
      lastNode := by rw [lineFor_switches]; cases o.mmap <;> cases o.lastNode <;> decide
      key := txt _ _ fun v => by rw [lineFor_values]; simp [eq_comm]
      salt := txt _ _ fun v => by rw [lineFor_values]; simp [eq_comm]
      personal := txt _ _ fun v => by rw [lineFor_values]; simp [eq_comm]
      length := num _ _ fun v => by rw [lineFor_values]; simp [eq_comm]
      innerHashLength := num _ _ fun v => by rw [lineFor_values]; simp [eq_comm]
      fanout := num _ _ fun v => by rw [lineFor_values]; simp [eq_comm]
      maxDepth := num _ _ fun v => by rw [lineFor_values]; simp [eq_comm]
      maxLeafLength := num _ _ fun v => by rw [lineFor_values]; simp [eq_comm]
      nodeOffset := num _ _ fun v => by rw [lineFor_values]; simp [eq_comm]
      nodeDepth := num _ _ fun v => by rw [lineFor_values]; simp [eq_comm]
      fits := fits }

example : ∃ l : CommandLine, l.Legible ∧ Bin.parseArgs 64 l.words = .ok
    { big := true, length := some 20, key := some "00ff".toList, fanout := some 2, lastNode := true, inputs := ["a.txt", "-"] } :=
  C65_every_option 64 _ (by rintro n (h | h) <;> cases h; decide) (by rintro t (h | h | h) <;> cases h; decide)

/-- **C65.** The words of the tests of the tool say the options of `stdinTests` and `fileTests` (C63), with the path of the file. -/
theorem C65_tests (bits : Nat) (hb : bits = 32 ∨ bits = 64) :
    Bin.stdinTestWords.map (Bin.parseArgs bits) = Bin.stdinTests.map (fun t => .ok t.1) ∧
    ∀ path : ArgText, Plain path →
      Bin.fileTestWords.map (fun ws => Bin.parseArgs bits (ws ++ [path])) =
        Bin.fileTests.map (fun t => .ok { t.1 with inputs := [String.ofList path] }) := by
  refine ⟨?_, fun path hp => ?_⟩
  · rcases hb with rfl | rfl <;> rfl
  · have h : ∀ items : List Item, (∀ i ∈ items, i.Legible) → Bin.parseWords (Bin.optArgs bits) none (items.flatMap Item.words ++ [path]) {} =
        .ok { seen := items.flatMap Bin.itemSeen, positional := items.flatMap Item.pathList ++ [path] } := by
      intro items hi
      rw [Bin.parseWords_items bits items hi, (Bin.parseWords_plain _ path hp _ _).1]
      simp [Bin.parseWords, Bin.Matches.addPos]
    have h1 := h [.joined .length "16".toList] (by simp [Item.Legible])
    have h2 := h [.joined .length "16".toList, .switch .mmap] (by simp [Item.Legible])
    have h3 := h [.letters .b [.p]] (by simp [Item.Legible])
    have g : ∀ ws m, Bin.parseWords (Bin.optArgs bits) none (ws ++ [path]) {} = .ok m → Bin.validate (Bin.optArgs bits) m = true →
        Bin.parseArgs bits (ws ++ [path]) = .ok (Bin.fromMatches bits m) := by
      intro ws m h hv
      unfold Bin.parseArgs; rw [h]; simp only; rw [if_pos hv]
    have g1 := g _ _ h1 (by rcases hb with rfl | rfl <;> rfl)
    have g2 := g _ _ h2 (by rcases hb with rfl | rfl <;> rfl)
    have g3 := g _ _ h3 (by rcases hb with rfl | rfl <;> rfl)
    show [_, _, _, _, _] = [_, _, _, _, _]
    refine congr (congrArg _ (g1.trans ?_)) (congr (congrArg _ (g2.trans ?_)) (congr (congrArg _ (g3.trans ?_)) (congr (congrArg _ (g3.trans ?_))
      (congrArg (· :: []) (g3.trans ?_))))) <;> rcases hb with rfl | rfl <;> rfl

end Blake2
