import Verif.Proofs.DocValues
import Verif.Properties.UnitTestsRun
import Verif.Properties.Args
import Verif.Properties.CliTests
/-!
# The examples in the documentation are true: C66
-/
namespace Blake2
open Spec Cli

variable {a : Alg}

theorem verdict_assert' (x y : List Char) : Verdict (assertThat (x == y)) (x = y) :=
  (verdict_assert x y).of_iff ⟨Eq.symm, Eq.symm⟩

theorem HRel.foldlM {h : Hasher} {s : State a} (r : HRel a h s) (pieces : List (List Byte)) :
    ∃ s', pieces.foldlM (fun s x => s.update x) s = .ok s' ∧ HRel a { h with msg := h.msg ++ pieces.flatten } s' := by
  induction pieces generalizing h s with
  | nil => exact ⟨s, rfl, by simpa using r⟩
  | cons x xs ih =>
    obtain ⟨s', e, r'⟩ := ih (r.feed x)
    refine ⟨s', ?_, ?_⟩
    · rw [List.foldlM_cons, State.update_eq _ _ r.sane, ok_bind, e]
    · simpa [Hasher.feed] using r'

theorem PHRel.foldlM {h : PHasher} {s : PState a} (r : PHRel a h s) (pieces : List (List Byte)) :
    ∃ s', pieces.foldlM (fun s x => s.update x) s = .ok s' ∧ PHRel a { h with msg := h.msg ++ pieces.flatten } s' := by
  induction pieces generalizing h s with
  | nil => exact ⟨s, rfl, by simpa using r⟩
  | cons x xs ih =>
    obtain ⟨s1, e1, r1, _⟩ := r.update x
    obtain ⟨s', e, r'⟩ := ih r1
    refine ⟨s', ?_, ?_⟩
    · rw [List.foldlM_cons, e1, ok_bind, e]
    · simpa [PHasher.feed] using r'

/-- C66. One-shot hashing: the example passes if the expected output is right and otherwise panics. -/
theorem C66_one_shot (plat : Platform) (x : List Byte) (out : List Char) :
    (out = hexOf (Spec.hash a (Config.default a) x) → docOneShot a plat x out = .ok ()) ∧
    (¬ out = hexOf (Spec.hash a (Config.default a) x) → docOneShot a plat x out = .error .panic) := by
  unfold docOneShot blake2
  have hh := hash_eq (rep_new a plat) x
  rw [(rep_new a plat).hashLength] at hh
  rw [hh, ok_bind, toHex_config (rep_new a plat).valid, ok_bind]
  exact verdict_assert' _ _

/-- C66. A chain of builder calls and updates: the example passes if the arguments are in range and the expected output is right, and
otherwise panics. -/
theorem C66_chain (plat : Platform) (calls : List Setter) (pieces : List (List Byte)) (out : List Char) :
    ((∀ c ∈ calls, c.InRange a) ∧ out = hexOf (Spec.hash a (configOf a calls) pieces.flatten) →
      docChain a plat calls pieces out = .ok ()) ∧
    (¬ ((∀ c ∈ calls, c.InRange a) ∧ out = hexOf (Spec.hash a (configOf a calls) pieces.flatten)) →
      docChain a plat calls pieces out = .error .panic) := by
  unfold docChain
  by_cases hr : ∀ c ∈ calls, c.InRange a
  · obtain ⟨p, e⟩ := C03_nonvacuous (a := a) plat calls hr
    have r := (built_rep e).1
    obtain ⟨s, es, r1⟩ := (HRel.create r).foldlM pieces
    simp only [List.nil_append] at r1
    rw [e, ok_bind, es, ok_bind, r1.finalize, ok_bind, toHex_config r.valid, ok_bind]
    exact (verdict_assert' _ _).of_iff ⟨fun h => ⟨hr, h⟩, fun h => h.2⟩
  · rw [build_out_of_range _ _ hr]
    exact ⟨fun h => absurd h.1 hr, fun _ => rfl⟩

/-- C66. The example of `Params` runs for every input and all builder calls in range. -/
theorem C66_params (plat : Platform) (calls : List Setter) (hr : ∀ c ∈ calls, c.InRange a) (x : List Byte) :
    docParams a plat calls x = .ok () := by
  unfold docParams
  obtain ⟨p, e⟩ := C03_nonvacuous (a := a) plat calls hr
  rw [e, ok_bind, hash_eq (built_rep e).1]
  rfl

/-- C66. The example of `State`: for all inputs, finalizing in the middle gives the hash of what was fed so far, and does not disturb what
follows. -/
theorem C66_state (plat : Platform) (x y : List Byte) : docState a plat x y (x ++ y) = .ok () := by
  unfold docState blake2
  have r0 := hrel_new a plat
  have r1 := r0.feed x
  have r2 := r1.feed y
  have m1 : Hasher.feed x { config := Config.default a, msg := [] } = { config := Config.default a, msg := x } := by
    simp [Hasher.feed]
  have m2 : Hasher.feed y { config := Config.default a, msg := x } = { config := Config.default a, msg := x ++ y } := by
    simp [Hasher.feed]
  rw [m1] at r1 r2
  rw [m2] at r2
  have h1 := hash_eq (rep_new a plat) x
  have h2 := hash_eq (rep_new a plat) (x ++ y)
  rw [(rep_new a plat).hashLength] at h1 h2
  have e1 := asBytes_config (rep_new a plat).valid x
  have e2 := asBytes_config (rep_new a plat).valid (x ++ y)
  simp only
  rw [State.update_eq _ _ r0.sane, ok_bind, h1, ok_bind, r1.finalize, ok_bind, eqHash_self e1, ok_bind, assertThat_true, ok_bind,
    State.update_eq _ _ r1.sane, ok_bind, h2, ok_bind, r2.finalize, ok_bind, eqHash_self e2, ok_bind]
  rfl

/-- C66. One-shot hashing with the tree variants. -/
theorem C66_tree_one_shot (plat : Platform) (x : List Byte) (out : List Char) :
    (out = hexOf (Spec.hashP a (maxOut a) [] x) → docTreeOneShot a plat x out = .ok ()) ∧
    (¬ out = hexOf (Spec.hashP a (maxOut a) [] x) → docTreeOneShot a plat x out = .error .panic) := by
  unfold docTreeOneShot
  have r := prep_new a plat
  have hh := PParams.hash_eq r x
  rw [r.hashLength] at hh
  simp only
  rw [hh, ok_bind, toHex_pconfig r.le, ok_bind]
  exact verdict_assert' _ _

/-- C66. A chain of builder calls and updates with the tree variants. -/
theorem C66_tree_chain (plat : Platform) (calls : List PSetter) (pieces : List (List Byte)) (out : List Char) :
    ((∀ c ∈ calls, c.InRange a) ∧ out = hexOf (Spec.hashP a (pconfigOf a calls).hashLength (pconfigOf a calls).key pieces.flatten) →
      docTreeChain a plat calls pieces out = .ok ()) ∧
    (¬ ((∀ c ∈ calls, c.InRange a) ∧ out = hexOf (Spec.hashP a (pconfigOf a calls).hashLength (pconfigOf a calls).key pieces.flatten)) →
      docTreeChain a plat calls pieces out = .error .panic) := by
  unfold docTreeChain
  by_cases hr : ∀ c ∈ calls, c.InRange a
  · obtain ⟨p, e, r, _⟩ := prep_build (c := PConfig.default a) (prep_new a plat) calls hr
    have r : PRep a (pconfigOf a calls).hashLength (pconfigOf a calls).key p := r
    obtain ⟨s, es, r0⟩ := PHRel.create (c := pconfigOf a calls) r
    obtain ⟨s1, es1, r1⟩ := r0.foldlM pieces
    have f1 := r1.finalize
    simp only [List.nil_append] at f1
    rw [e, ok_bind, es, ok_bind, es1, ok_bind, f1, ok_bind, toHex_pconfig r.le, ok_bind]
    exact (verdict_assert' _ _).of_iff ⟨fun h => ⟨hr, h⟩, fun h => h.2⟩
  · rw [pbuild_out_of_range _ _ hr]
    exact ⟨fun h => absurd h.1 hr, fun _ => rfl⟩

/-- C66. The example of the tree variants' `Params` runs for all builder calls in range. -/
theorem C66_tree_params (plat : Platform) (calls : List PSetter) (hr : ∀ c ∈ calls, c.InRange a) :
    docTreeParams a plat calls = .ok () := by
  unfold docTreeParams
  obtain ⟨p, e, r, _⟩ := prep_build (c := PConfig.default a) (prep_new a plat) calls hr
  have r : PRep a (pconfigOf a calls).hashLength (pconfigOf a calls).key p := r
  obtain ⟨s, es, _⟩ := PHRel.create (c := pconfigOf a calls) r
  rw [e, ok_bind, es]
  rfl

/-- C66. The example of `update_many` passes for any number of inputs of any lengths. -/
theorem C66_update_many (plat : Platform) (inputs : List (List Byte)) : docUpdateMany a plat inputs = .ok () := by
  have r0 := hrel_new a plat
  have z : (inputs.map fun _ => State.new a plat).zip inputs = inputs.map fun x => (State.new a plat, x) := by
    induction inputs with
    | nil => rfl
    | cons x xs ih => simp [ih]
  have h : updateMany ((inputs.map fun _ => State.new a plat).zip inputs) = .ok (inputs.map fun x => State.upd (State.new a plat) x) := by
    rw [z, updateMany_eq, List.map_map]
    · rfl
    · intro q hq
      obtain ⟨x, _, rfl⟩ := List.mem_map.1 hq
      exact r0.sane
  unfold docUpdateMany docUpdateManyOf
  simp only
  rw [h, ok_bind]
  apply forM_ok
  intro q hq
  obtain ⟨i, hi, e⟩ := List.getElem_of_mem hq
  simp at hi
  obtain ⟨s, x⟩ := q
  have hs : s = State.upd (State.new a plat) x := by
    rw [List.getElem_zip, Prod.mk.injEq] at e
    rw [← e.1, ← e.2, List.getElem_map]
  subst hs
  have r1 := r0.feed x
  have m1 : Hasher.feed x { config := Config.default a, msg := [] } = { config := Config.default a, msg := x } := by
    simp [Hasher.feed]
  rw [m1] at r1
  have h1 := hash_eq (rep_new a plat) x
  rw [(rep_new a plat).hashLength] at h1
  have e1 := asBytes_config (rep_new a plat).valid x
  unfold blake2
  simp only
  rw [h1, ok_bind, r1.finalize, ok_bind, eqHash_self e1, ok_bind]
  rfl

/-- C66. The example of `hash_many` passes for any number of inputs of any lengths, and any builder calls in range. -/
theorem C66_hash_many (plat : Platform) (dbg : Bool) (calls : List Setter) (hr : ∀ c ∈ calls, c.InRange a) (inputs : List (List Byte)) :
    docHashMany a plat dbg calls inputs = .ok () := by
  obtain ⟨p, e⟩ := C03_nonvacuous (a := a) plat calls hr
  have r := (built_rep e).1
  obtain ⟨jobs, out, e3, e4, hlo, e5⟩ := C10_hash_many (inputs.map fun x => (p, x)) (by
    intro q hq
    obtain ⟨x, _, rfl⟩ := List.mem_map.1 hq
    exact ⟨plat, calls, e⟩)
  have e3' : (inputs.mapM fun x => HashManyJob.new p x) = .ok jobs := by
    rw [← e3, List.mapM_map]
    rfl
  unfold docHashMany docHashManyOf
  rw [e, ok_bind, e3', ok_bind, e4, ok_bind]
  apply forM_ok
  intro q hq
  obtain ⟨i, hi, e6⟩ := List.getElem_of_mem hq
  obtain ⟨x, j⟩ := q
  rw [List.getElem_zip, Prod.mk.injEq] at e6
  have hi : i < inputs.length ∧ i < out.length := by simpa [Nat.lt_min] using hi
  obtain ⟨j', h, h1, h2, h3⟩ := e5 i p x (by simp [← e6.1, hi.1])
  have hj : j' = j := by
    rw [List.getElem?_eq_getElem hi.2] at h1
    injection h1 with h1
    rw [← h1, e6.2]
  subst hj
  have h5 : h.asBytes = .ok (Spec.hash a (configOf a calls) x) := by
    rw [hash_eq r] at h2
    cases h2
    exact asBytes_full r _
  simp only
  rw [h2, ok_bind, h3, ok_bind, eqHash_self h5, ok_bind]
  rfl

/-! ## The values in /repo -/

/-- **C66.** The examples in the documentation of both crates, as they stand, are true on every machine and in every build. -/
theorem C66_examples (a : Alg) (e : Machine) (dbg : Bool) : docExamples a e dbg = .ok () := by
  have f3 : [ascii "foo", ascii "bar", ascii "baz"].flatten = ascii "foobarbaz" := by decide
  have f2 : [ascii "foo", ascii "bar"].flatten = ascii "foobar" := by decide
  unfold docExamples
  rw [(C66_one_shot (detect e) _ _).1 (docFoo_right a), ok_bind,
    (C66_chain (detect e) _ _ _).1 ⟨by cases a <;> decide, by rw [f3]; exact docChain_right a⟩, ok_bind,
    C66_params (detect e) _ (by cases a <;> decide), ok_bind,
    show ascii "foobar" = ascii "foo" ++ ascii "bar" by decide, C66_state, ok_bind,
    (C66_tree_one_shot (detect e) _ _).1 (docTreeFoo_right a), ok_bind,
    (C66_tree_chain (detect e) _ _ _).1 ⟨by cases a <;> decide, by rw [f3]; exact docTreeChain_right a⟩, ok_bind,
    C66_tree_params (detect e) _ (by cases a <;> decide), ok_bind,
    (C66_tree_chain (detect e) _ _ _).1 ⟨by simp, by rw [f2]; exact docTreeFoobar_right a⟩, ok_bind,
    C66_update_many, ok_bind, C66_hash_many (detect e) dbg _ (by cases a <;> decide)]

theorem readme_right0 : (readmeCommands[0]'(by decide)).2.2 = hexOf (({ small := true, parallel := true } : Opt).digest (ascii "hi\n")) :=
  rightRow_of (o := { small := true, parallel := true }) (by kernel_rfl)

theorem readme_right1 : (readmeCommands[1]'(by decide)).2.2 = hexOf (({} : Opt).digest (ascii "hello world\n")) :=
  rightRow_of (o := {}) (by kernel_rfl)

theorem readme_right3 : (readmeCommands[3]'(by decide)).2.2 =
    hexOf (({ small := true, parallel := true } : Opt).digest (ascii "hello world\n")) :=
  rightRow_of (o := { small := true, parallel := true }) (by kernel_rfl)

/-- **C66.** The command lines in the README files print what is shown there, on every machine, in whatever pieces the input arrives. -/
theorem C66_readme (e : Machine) (w : World) (stdin : List ReadResult) (hf : ReadsFit stdin) (files : List OsFile) :
    ∀ c ∈ readmeCommands, readOutcome stdin = some (.ok c.2.1) →
      Bin.program e w c.1 stdin files = .ok (.main { lines := [.out (String.ofList c.2.2)], status := 0 }) := by
  have go : ∀ (l : CommandLine) (o : Opt), l.Legible → Bin.parseArgs w.ptrBits l.words = .ok o → o.problem w = none → l.paths = [] →
      .mmap ∉ l.switches → ∀ data hex, hex = hexOf (o.digest data) → readOutcome stdin = some (.ok data) →
      Bin.program e w l.words stdin files = .ok (.main { lines := [.out (String.ofList hex)], status := 0 }) := by
    intro l o hl hp ho h1 h2 data hex hh hr
    obtain ⟨a1, a2⟩ := (C65_command_line _ l hl o).mp hp
    rw [hh]
    exact C65_stdin e w l hl o a1 a2 ho h1 h2 stdin hf data hr files
  intro c hc hr
  simp only [readmeCommands, List.mem_cons, List.not_mem_nil, or_false] at hc
  rcases hc with rfl | rfl | rfl | rfl
  · exact go { items := [.letters .s [.p]] } { small := true, parallel := true } (by simp [CommandLine.Legible, Item.Legible]) rfl rfl rfl (by decide)
      _ _ readme_right0 hr
  · exact go { items := [] } {} (by simp [CommandLine.Legible]) rfl rfl rfl (by decide) _ _ readme_right1 hr
  · exact go { items := [.letters .b []] } { big := true } (by simp [CommandLine.Legible, Item.Legible]) rfl rfl rfl (by decide)
      _ _ readme_right1 hr
  · exact go { items := [.letters .s [.p]] } { small := true, parallel := true } (by simp [CommandLine.Legible, Item.Legible]) rfl rfl rfl (by decide)
      _ _ readme_right3 hr

/-- The hypotheses of `C66_readme` are met: the twelve bytes arrive in two pieces. -/
example : ReadsFit [.ok (ascii "hello "), .ok (ascii "world\n"), .ok []] ∧
    readOutcome [.ok (ascii "hello "), .ok (ascii "world\n"), .ok []] = some (.ok (ascii "hello world\n")) := by
  refine ⟨?_, rfl⟩
  intro r hr bytes h
  simp only [List.mem_cons, List.not_mem_nil, or_false] at hr
  rcases hr with rfl | rfl | rfl <;> injection h with h <;> subst h <;> decide

/-- A wrong expected output is noticed. -/
example (plat : Platform) : docOneShot .b plat (ascii "foo") (docFoo .s) = .error .panic := by
  refine (C66_one_shot plat _ _).2 fun h => ?_
  rw [← docFoo_right] at h
  exact absurd (congrArg List.length h) (by decide +kernel)

end Blake2
