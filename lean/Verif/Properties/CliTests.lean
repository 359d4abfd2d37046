import Verif.Model.CliTests
import Verif.Proofs.FastEval
import Verif.Proofs.KernelRfl
import Verif.Properties.Cli
import Verif.Properties.UnitTests
/-!
# The tests of the command line tool pass: C63
-/
namespace Blake2
open Spec Cli

theorem verdict_status_ok (expected hex : List Char) :
    Verdict (do
      assertThat (((0 : Nat) == 0) : Bool)
      assertThat (String.ofList expected == String.ofList hex)) (expected = hex) := by
  by_cases h : expected = hex
  · subst h
    simp only [beq_self_eq_true]
    exact ⟨fun _ => rfl, fun h => absurd trivial h⟩
  · have hb : (String.ofList expected == String.ofList hex) = false :=
      beq_eq_false_iff_ne.2 fun e => h (by simpa using congrArg String.toList e)
    rw [hb]
    exact ⟨fun h' => absurd h' h, fun _ => rfl⟩

/-- C63. A test of the tool that gives it acceptable options and writes `data` to its standard input, in whatever pieces it arrives,
passes if the expected output is the digest and otherwise panics. -/
theorem C63_cli_stdin (e : Machine) (w : World) (o : Opt) (ho : o.problem w = none) (hi : o.inputs = []) (hm : o.mmap = false)
    (stdin : List ReadResult) (hf : ReadsFit stdin) (data : List Byte) (hr : readOutcome stdin = some (.ok data)) (files : List OsFile)
    (expected : List Char) :
    (expected = hexOf (o.digest data) → Bin.cliTest e w o stdin files expected = .ok ()) ∧
    (¬ expected = hexOf (o.digest data) → Bin.cliTest e w o stdin files expected = .error .panic) := by
  unfold Bin.cliTest
  rw [C27_stdin e w o ho hi stdin hf files _ hr, hm, if_neg (by decide), ok_bind]
  exact verdict_status_ok _ _

/-- C63. The same for a test with one input file. -/
theorem C63_cli_file (e : Machine) (w : World) (o : Opt) (ho : o.problem w = none) (path : String) (hi : o.inputs = [path])
    (stdin : List ReadResult) (f : OsFile) (hf : ReadsFit f.reads) (data : List Byte) (hr : f.content w o.mmap = some (.ok data))
    (expected : List Char) :
    (expected = hexOf (o.digest data) → Bin.cliTest e w o stdin [f] expected = .ok ()) ∧
    (¬ expected = hexOf (o.digest data) → Bin.cliTest e w o stdin [f] expected = .error .panic) := by
  unfold Bin.cliTest
  rw [C27_files e w o ho (by rw [hi]; simp) stdin [f] (by rw [hi]; rfl) (by simpa using hf) [.ok data] (by simp [hr]), ok_bind, hi]
  have hl : List.zipWith o.line [path] [Except.ok data] = [.out (String.ofList (hexOf (o.digest data)))] := by
    simp [Opt.line, hi]
  rw [hl]
  exact verdict_status_ok _ _

/-- A row of the tables of tests has the right output. -/
abbrev RightRow (t : Opt × List Byte × List Char) : Prop := t.2.2 = hexOf (t.1.digest t.2.1)

theorem rightRow_of {o : Opt} {data : List Byte} {s : String}
    (h : s = String.ofList (hexOf (if o.parallel then Fast.hashP o.alg o.config.digestLength o.config.key data else Fast.hash o.alg o.config data))) :
    RightRow (o, data, s.toList) := by
  unfold RightRow Opt.digest
  simp only [Fast.hash_eq, Fast.hashP_eq]
  exact toList_of h

theorem stdinTests_right0 : RightRow (Bin.stdinTests[0]'(by decide)) := rightRow_of (by kernel_rfl)

theorem stdinTests_right1 : RightRow (Bin.stdinTests[1]'(by decide)) := rightRow_of (by kernel_rfl)

theorem stdinTests_right2 : RightRow (Bin.stdinTests[2]'(by decide)) := rightRow_of (by kernel_rfl)

theorem stdinTests_right3 : RightRow (Bin.stdinTests[3]'(by decide)) := rightRow_of (by kernel_rfl)

theorem stdinTests_right4 : RightRow (Bin.stdinTests[4]'(by decide)) := rightRow_of (by kernel_rfl)

theorem stdinTests_right5 : RightRow (Bin.stdinTests[5]'(by decide)) := rightRow_of (by kernel_rfl)

theorem stdinTests_right : ∀ t ∈ Bin.stdinTests, t.2.2 = hexOf (t.1.digest t.2.1) := by
  intro t ht
  obtain ⟨i, hi, rfl⟩ := List.mem_iff_getElem.1 ht
  match i, hi with
  | 0, _ => exact stdinTests_right0
  | 1, _ => exact stdinTests_right1
  | 2, _ => exact stdinTests_right2
  | 3, _ => exact stdinTests_right3
  | 4, _ => exact stdinTests_right4
  | 5, _ => exact stdinTests_right5
  | _ + 6, hi => exact absurd hi (by simp [Bin.stdinTests])

theorem fileTests_right0 : RightRow (Bin.fileTests[0]'(by decide)) := rightRow_of (by kernel_rfl)

theorem fileTests_right1 : RightRow (Bin.fileTests[1]'(by decide)) := rightRow_of (by kernel_rfl)

theorem fileTests_right2 : RightRow (Bin.fileTests[2]'(by decide)) := rightRow_of (by kernel_rfl)

theorem fileTests_right3 : RightRow (Bin.fileTests[3]'(by decide)) := rightRow_of (by kernel_rfl)

theorem fileTests_right4 : RightRow (Bin.fileTests[4]'(by decide)) := rightRow_of (by kernel_rfl)

theorem fileTests_right : ∀ t ∈ Bin.fileTests, t.2.2 = hexOf (t.1.digest t.2.1) := by
  intro t ht
  obtain ⟨i, hi, rfl⟩ := List.mem_iff_getElem.1 ht
  match i, hi with
  | 0, _ => exact fileTests_right0
  | 1, _ => exact fileTests_right1
  | 2, _ => exact fileTests_right2
  | 3, _ => exact fileTests_right3
  | 4, _ => exact fileTests_right4
  | _ + 5, hi => exact absurd hi (by simp [Bin.fileTests])

theorem digest_inputs (o : Opt) (l : List String) (data : List Byte) : ({ o with inputs := l } : Opt).digest data = o.digest data := rfl

theorem problem_inputs (o : Opt) (l : List String) (w : World) : ({ o with inputs := l } : Opt).problem w = o.problem w := rfl

/-- C63. The tests of the command line tool, as they stand in /repo, pass on every machine: those that write to standard input,
however the bytes arrive there, and those that read a file, however it is delivered. -/
theorem C63_cli_tests (e : Machine) (w : World) :
    (∀ t ∈ Bin.stdinTests, ∀ stdin files, ReadsFit stdin → readOutcome stdin = some (.ok t.2.1) →
      Bin.cliTest e w t.1 stdin files t.2.2 = .ok ()) ∧
    (∀ t ∈ Bin.fileTests, ∀ path stdin f, ReadsFit f.reads → f.content w t.1.mmap = some (.ok t.2.1) →
      Bin.cliTest e w { t.1 with inputs := [path] } stdin [f] t.2.2 = .ok ()) := by
  refine ⟨fun t ht stdin files hf hr => ?_, fun t ht path stdin f hf hr => ?_⟩
  · have hr' := stdinTests_right t ht
    have hp : t.1.problem w = none ∧ t.1.inputs = [] ∧ t.1.mmap = false := by
      simp only [Bin.stdinTests, List.mem_cons, List.not_mem_nil, or_false] at ht
      rcases ht with rfl | rfl | rfl | rfl | rfl | rfl <;> exact ⟨rfl, rfl, rfl⟩
    exact (C63_cli_stdin e w t.1 hp.1 hp.2.1 hp.2.2 stdin hf _ hr files _).1 hr'
  · have hp : t.1.problem w = none := by
      simp only [Bin.fileTests, List.mem_cons, List.not_mem_nil, or_false] at ht
      rcases ht with rfl | rfl | rfl | rfl | rfl <;> rfl
    refine (C63_cli_file e w { t.1 with inputs := [path] } ?_ path rfl stdin f hf t.2.1 hr t.2.2).1 ?_
    · rw [problem_inputs]
      exact hp
    · rw [digest_inputs]
      exact fileTests_right t ht

/-- The hypotheses are met: the bytes arrive in two pieces with an interruption between them. -/
example (e : Machine) (w : World) :
    Bin.cliTest e w { length := some 16 } [.ok (ascii "abc"), .interrupted, .ok (ascii "def"), .ok []] []
      "2465e7ee63a17b4b307c7792c432aef6".toList = .ok () :=
  (C63_cli_tests e w).1 ({ length := some 16 }, ascii "abcdef", "2465e7ee63a17b4b307c7792c432aef6".toList) (by simp [Bin.stdinTests])
    _ _ (by intro r hr b hb; simp at hr; rcases hr with rfl | rfl | rfl | rfl <;> cases hb <;> decide) rfl

end Blake2
