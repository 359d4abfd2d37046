import Verif.Proofs.BinSpec
/-!
# Properties of the command line tool: C25–C27
-/
namespace Blake2
open Spec Cli

/-- The bytes a `read` delivers. -/
def Cli.ReadResult.bytes : ReadResult → List Byte
  | .ok b => b
  | _ => []

/-- Results of `read` after which the input goes on: some bytes, at most a buffer full, or `Interrupted`. -/
def Cli.ReadResult.GoesOn : ReadResult → Prop
  | .ok b => b ≠ [] ∧ b.length ≤ 32768
  | .interrupted => True
  | .error _ => False

theorem readOutcome_goesOn (pre post : List ReadResult) (h : ∀ r ∈ pre, r.GoesOn) :
    readOutcome (pre ++ post) = (readOutcome post).map (Except.map (pre.flatMap ReadResult.bytes ++ ·)) := by
  induction pre with
  | nil =>
    cases hp : readOutcome post with
    | none => simp [hp]
    | some q => cases q <;> simp [hp, Except.map]
  | cons r pre ih =>
    have ih := ih fun r hr => h r (by simp [hr])
    have hr := h r (by simp)
    cases r with
    | error m => exact hr.elim
    | interrupted => simpa [readOutcome, ReadResult.bytes] using ih
    | ok b =>
      cases b with
      | nil => exact absurd rfl hr.1
      | cons x xs =>
        rw [List.cons_append, readOutcome]
        · rw [ih]
          cases readOutcome post with
          | none => rfl
          | some q => cases q <;> simp [Except.map, ReadResult.bytes]
        · simp

theorem makeParams_ok (e : Machine) (w : World) (o : Opt) (h : o.problem w = none) :
    ∃ p, (Bin.makeParams e w o).run = .ok (.ok p) ∧ Bin.PGood o p := by
  have := Bin.makeParams_step e w o
  rw [h] at this
  obtain ⟨p, e, hp⟩ := this
  refine ⟨p, by rw [e]; rfl, ?_⟩
  unfold Bin.PGood
  cases hpar : o.parallel <;> simpa [hpar] using hp

/-! ## C26 -/

theorem serialOnly_none {α : Type} (o : Opt) (name : String) (v : Option α) (P : α → Prop) [DecidablePred P] :
    o.serialOnly name v P = none ↔ ∀ x, v = some x → o.parallel = false ∧ P x := by
  unfold Opt.serialOnly
  cases v with
  | none => simp
  | some x => cases o.parallel <;> by_cases h : P x <;> simp [h]

theorem hexOption_none (w : World) (v : Option (List Char)) (check : List Byte → Option Problem) :
    hexOption w v check = none ↔ ∀ t, v = some t → ∃ k, unhex t = some k ∧ check k = none := by
  unfold hexOption
  cases v with
  | none => simp
  | some t => cases h : unhex t <;> simp [h]

/-- C26. The options that are accepted: not both `-b` and `-s`; `--length`, `--key` and `--inner-hash-length` at most the output
size of the algorithm, `--salt` and `--personal` at most 16 (BLAKE2b) or 8 (BLAKE2s) bytes, all of the hexadecimal ones well formed;
and with `-p` only `--length` and `--key`. -/
theorem C26_accepted_iff (w : World) (o : Opt) :
    o.problem w = none ↔
      ¬ (o.big = true ∧ o.small = true) ∧
      (∀ n, o.length = some n → 1 ≤ n ∧ n ≤ maxOut o.alg) ∧
      (∀ t, o.key = some t → ∃ k, unhex t = some k ∧ k.length ≤ maxOut o.alg) ∧
      (∀ t, o.salt = some t → ∃ s, unhex t = some s ∧ s.length ≤ saltBytes o.alg) ∧
      (∀ t, o.personal = some t → ∃ s, unhex t = some s ∧ s.length ≤ saltBytes o.alg) ∧
      (∀ n, o.nodeOffset = some n → n.toNat < 2 ^ (8 * nodeOffsetBytes o.alg)) ∧
      (∀ n, o.innerHashLength = some n → n ≤ maxOut o.alg) ∧
      (o.parallel = true → o.salt = none ∧ o.personal = none ∧ o.fanout = none ∧ o.maxDepth = none ∧ o.maxLeafLength = none ∧
        o.nodeOffset = none ∧ o.nodeDepth = none ∧ o.innerHashLength = none ∧ o.lastNode = false) := by
  have hl : ((o.length.bind fun n => if 1 ≤ n ∧ n ≤ maxOut o.alg then none else some Problem.panic) = none) ↔
      ∀ n, o.length = some n → 1 ≤ n ∧ n ≤ maxOut o.alg := by
    cases o.length with
    | none => simp
    | some n => by_cases h : 1 ≤ n ∧ n ≤ maxOut o.alg <;> simp [h]
  have hb : (if (o.big && o.small) = true then some (Problem.message "-b and -s can't be used together") else none) = none ↔
      ¬ (o.big = true ∧ o.small = true) := by
    cases o.big <;> cases o.small <;> simp
  have hk : ∀ k : List Byte, ((if k.length ≤ maxOut o.alg then none else some Problem.panic) = none) ↔
      k.length ≤ maxOut o.alg := by
    intro k
    by_cases h : k.length ≤ maxOut o.alg <;> simp [h]
  unfold Opt.problem Opt.checks
  simp only [List.findSome?_eq_none_iff, List.mem_cons, List.not_mem_nil, or_false, id, forall_eq_or_imp, forall_eq]
  simp only [hb, hl, hexOption_none, hk, serialOnly_none]
  cases hp : o.parallel with
  | false => simp
  | true =>
    cases o.salt <;> cases o.personal <;> cases o.fanout <;> cases o.maxDepth <;> try simp
    all_goals cases o.maxLeafLength <;> cases o.nodeOffset <;> cases o.nodeDepth <;> cases o.innerHashLength <;>
      cases o.lastNode <;> simp

/-- C26. Options that are not accepted never lead to a hash: the tool prints one error and exits with status 1, or panics before
printing anything. Which of the two is decided by the first thing that is wrong. -/
theorem C26_rejected (e : Machine) (w : World) (o : Opt) (stdin : List ReadResult) (files : List OsFile) (pr : Problem)
    (h : o.problem w = some pr) :
    Bin.main e w o stdin files = match pr with
      | .message m => .ok { lines := [.err ("blake2: " ++ m)], status := 1 }
      | .panic => .error .panic := by
  have := Bin.makeParams_step e w o
  rw [h] at this
  cases pr with
  | message m =>
    simp only [Bin.Step] at this
    unfold Bin.main
    rw [this]; rfl
  | panic =>
    simp only [Bin.Step] at this
    unfold Bin.main
    rw [this]; rfl

example (e : Machine) (w : World) (stdin : List ReadResult) (files : List OsFile) :
    Bin.main e w { parallel := true, fanout := some 2 } stdin files =
      .ok { lines := [.err ("blake2: " ++ "--fanout not supported")], status := 1 } ∧
    Bin.main e w { length := some 65 } stdin files = .error .panic :=
  ⟨C26_rejected e w _ stdin files (.message "--fanout not supported") rfl, C26_rejected e w _ stdin files .panic rfl⟩

/-- C26. `-b` with `-s` is an error, whatever the other options. -/
theorem C26_big_small (e : Machine) (w : World) (o : Opt) (stdin : List ReadResult) (files : List OsFile)
    (hb : o.big = true) (hs : o.small = true) :
    Bin.main e w o stdin files = .ok { lines := [.err "blake2: -b and -s can't be used together"], status := 1 } := by
  have : o.problem w = some (.message "-b and -s can't be used together") := by
    unfold Opt.problem Opt.checks
    simp [hb, hs]
  rw [C26_rejected e w o stdin files _ this]
  rfl

/-- C26. Accepted options give exactly the parameters asked for: the digest of any data under the parameters the tool makes is the
digest under `Opt.config`, in which every option sets its own field. -/
theorem C26_accepted (e : Machine) (w : World) (o : Opt) (h : o.problem w = none) :
    ∃ p, (Bin.makeParams e w o).run = .ok (.ok p) ∧
      ∀ chunks : List (List Byte), ∃ s s', p.toState = .ok s ∧ chunks.foldlM (fun s x => Bin.State.update x s) s = .ok s' ∧
        s'.finalize = .ok (hexOf (if o.parallel then hashP o.alg o.config.digestLength o.config.key chunks.flatten
          else hash o.alg o.config chunks.flatten)) := by
  obtain ⟨p, e1, hp⟩ := makeParams_ok e w o h
  refine ⟨p, e1, fun chunks => ?_⟩
  obtain ⟨s, e2, hs⟩ := Bin.toState_good hp
  have : ∀ (cs : List (List Byte)) (m : List Byte) (s : Bin.State), Bin.SGood o m s →
      ∃ s', cs.foldlM (fun s x => Bin.State.update x s) s = .ok s' ∧ Bin.SGood o (m ++ cs.flatten) s' := by
    intro cs
    induction cs with
    | nil => intro m s hs; exact ⟨s, rfl, by simpa using hs⟩
    | cons c cs ih =>
      intro m s hs
      obtain ⟨s1, e1, h1⟩ := Bin.update_good hs c
      obtain ⟨s2, e2, h2⟩ := ih _ _ h1
      refine ⟨s2, ?_, by simpa using h2⟩
      rw [List.foldlM_cons, e1]; exact e2
  obtain ⟨s', e3, hs'⟩ := this chunks [] s hs
  refine ⟨s, s', e2, e3, ?_⟩
  rw [Bin.finalize_good hs', List.nil_append, Opt.digest]

/-- C26. Without options the hash function is plain BLAKE2b, with `-s` BLAKE2s, with `-p` BLAKE2bp, with `-s -p` BLAKE2sp. -/
theorem C26_plain (w : World) (big small parallel mmap : Bool) (inputs : List String) (data : List Byte)
    (h : ¬ (big = true ∧ small = true)) :
    let o : Opt := { inputs := inputs, mmap := mmap, big := big, small := small, parallel := parallel }
    o.problem w = none ∧ o.digest data =
      match small, parallel with
      | false, false => hash .b (Config.default .b) data
      | true, false => hash .s (Config.default .s) data
      | false, true => hashP .b 64 [] data
      | true, true => hashP .s 32 [] data := by
  intro o
  refine ⟨(C26_accepted_iff w o).2 ?_, ?_⟩
  · simp [o]
    simpa using h
  · cases small <;> cases parallel <;> rfl

/-- Every option, and an input of nine bytes in two reads with an interruption between them. -/
def sampleOpt : Opt :=
  { small := true, length := some 20, key := some "00ff".toList, salt := some "0102030405060708".toList,
    personal := some "AbCd".toList, fanout := some 2, maxDepth := some 3, maxLeafLength := some 4096,
    nodeOffset := some 0xffffffffffff, nodeDepth := some 1, innerHashLength := some 32, lastNode := true }

theorem sampleOpt_ok (w : World) : sampleOpt.problem w = none := by
  have : ∀ w : World, sampleOpt.problem w = sampleOpt.problem ⟨fun _ => "", 0⟩ := fun _ => rfl
  rw [this]; decide +kernel

example : sampleOpt.config = (
    { digestLength := 20, key := [0, 0xff], fanout := 2, maxDepth := 3, leafLength := 4096, nodeOffset := 2 ^ 48 - 1
      nodeDepth := 1, innerLength := 32, salt := [1, 2, 3, 4, 5, 6, 7, 8], personal := [0xab, 0xcd]
      lastNode := true } : Config) := by decide +kernel
example (w : World) : ({ parallel := true, fanout := some 2 } : Opt).problem w = some (.message "--fanout not supported") := by
  rfl
example (w : World) : ({ small := true, length := some 33, parallel := true, fanout := some 2 } : Opt).problem w = some .panic := by
  rfl
example (w : World) : ({ key := some "0x12".toList } : Opt).problem w = some (.message (w.hexMessage "0x12".toList)) := by
  rfl

/-! ## C25 -/

theorem readsFit_of_goesOn {pre rest : List ReadResult} {r : ReadResult} (h : ∀ r ∈ pre, r.GoesOn)
    (hr : ∀ b, r = .ok b → b.length ≤ 32768) (hrest : ReadsFit rest) : ReadsFit (pre ++ r :: rest) := by
  intro q hq b hb
  rcases List.mem_append.1 hq with hq | hq
  · subst hb; exact (h _ hq).2
  · rcases List.mem_cons.1 hq with rfl | hq
    · exact hr b hb
    · exact hrest q hq b hb

/-- C25. Standard input. Whatever the sizes of the reads and wherever `Interrupted` occurs, the tool prints the hash of exactly the
bytes read up to end of file, and any other error is reported instead of a hash. -/
theorem C25_stdin (e : Machine) (w : World) (o : Opt) (ho : o.problem w = none) (hi : o.inputs = []) (hm : o.mmap = false)
    (pre rest : List ReadResult) (h : ∀ r ∈ pre, r.GoesOn) (hrest : ReadsFit rest) (files : List OsFile) :
    Bin.main e w o (pre ++ .ok [] :: rest) files =
      .ok { lines := [.out (String.ofList (hexOf (o.digest (pre.flatMap ReadResult.bytes))))], status := 0 } ∧
    ∀ m, Bin.main e w o (pre ++ .error m :: rest) files = .ok { lines := [.err ("blake2: stdin: " ++ m)], status := 1 } := by
  obtain ⟨p, e1, hp⟩ := makeParams_ok e w o ho
  constructor
  · unfold Bin.main
    have := Bin.hashStdin_good hp (pre ++ .ok [] :: rest) (readsFit_of_goesOn h (fun b hb => by cases hb; simp) hrest)
    rw [hm, readOutcome_goesOn _ _ h] at this
    simp only [readOutcome, Option.map_some, Except.map, List.append_nil, Bool.false_eq_true, if_false] at this
    simp only [e1, hi, this, bind, Except.bind]
    rfl
  · intro m
    unfold Bin.main
    have := Bin.hashStdin_good hp (pre ++ .error m :: rest) (readsFit_of_goesOn h (fun b hb => by cases hb) hrest)
    rw [hm, readOutcome_goesOn _ _ h] at this
    simp only [readOutcome, Option.map_some, Except.map, Bool.false_eq_true, if_false] at this
    simp only [e1, hi, this, bind, Except.bind]
    rfl

/-- C25. A file, read. -/
theorem C25_file (e : Machine) (w : World) (o : Opt) (ho : o.problem w = none) (path : String) (hi : o.inputs = [path])
    (hm : o.mmap = false) (pre rest stdin : List ReadResult) (h : ∀ r ∈ pre, r.GoesOn) (hrest : ReadsFit rest)
    (meta_ : Except String Nat) (map : Nat → Except String (List Byte)) :
    Bin.main e w o stdin [{ openError := none, reads := pre ++ .ok [] :: rest, metadata := meta_, map := map }] =
      .ok { lines := [.out (String.ofList (hexOf (o.digest (pre.flatMap ReadResult.bytes))))], status := 0 } ∧
    (∀ m, Bin.main e w o stdin [{ openError := none, reads := pre ++ .error m :: rest, metadata := meta_, map := map }] =
      .ok { lines := [.err ("blake2: " ++ path ++ ": " ++ m)], status := 1 }) := by
  obtain ⟨p, e1, hp⟩ := makeParams_ok e w o ho
  constructor
  · unfold Bin.main
    have := Bin.hashFile_good hp w { openError := none, reads := pre ++ .ok [] :: rest, metadata := meta_, map := map }
      (readsFit_of_goesOn h (fun b hb => by cases hb; simp) hrest)
    rw [hm, OsFile.content] at this
    simp only [readOutcome_goesOn _ _ h, readOutcome, Option.map_some, Except.map, List.append_nil, Bool.false_eq_true,
      if_false] at this
    simp only [e1, hi, List.zip_cons_cons, List.zip_nil_left, Bin.fileLoop, this, bind, Except.bind]
    rfl
  · intro m
    unfold Bin.main
    have := Bin.hashFile_good hp w { openError := none, reads := pre ++ .error m :: rest, metadata := meta_, map := map }
      (readsFit_of_goesOn h (fun b hb => by cases hb) hrest)
    rw [hm, OsFile.content] at this
    simp only [readOutcome_goesOn _ _ h, readOutcome, Option.map_some, Except.map, Bool.false_eq_true, if_false] at this
    simp only [e1, hi, List.zip_cons_cons, List.zip_nil_left, Bin.fileLoop, this, bind, Except.bind]
    rfl

example (e : Machine) (w : World) (m : Nat → Except String (List Byte)) :
    Bin.main e w { inputs := ["x"] } [] [{ openError := none, reads := [.ok [1, 2], .interrupted] ++ .ok [] :: [.ok [3]]
                                           metadata := .error "", map := m }] =
      .ok { lines := [.out (String.ofList (hexOf (({ inputs := ["x"] } : Opt).digest [1, 2])))], status := 0 } :=
  (C25_file e w { inputs := ["x"] } rfl "x" rfl rfl [.ok [1, 2], .interrupted] [.ok [3]] []
    (by simp [ReadResult.GoesOn]) (by simp [ReadsFit]) _ m).1

/-- C25. A file, mapped: the tool asks for exactly the length of the file, whatever the width of `usize`, and prints the hash of what
is mapped. A file too long for an `isize` is an error. -/
theorem C25_mmap (e : Machine) (w : World) (o : Opt) (ho : o.problem w = none) (path : String) (hi : o.inputs = [path])
    (hm : o.mmap = true) (stdin : List ReadResult) (data : List Byte) (map : Nat → Except String (List Byte))
    (hmap : map data.length = .ok data) :
    Bin.main e w o stdin [{ openError := none, reads := [], metadata := .ok data.length, map := map }] =
      .ok (if data.length < 2 ^ (w.ptrBits - 1) then
          { lines := [.out (String.ofList (hexOf (o.digest data)))], status := 0 }
        else { lines := [.err ("blake2: " ++ path ++ ": mmap length would overflow isize")], status := 1 }) := by
  obtain ⟨p, e1, hp⟩ := makeParams_ok e w o ho
  unfold Bin.main
  have := Bin.hashFile_good hp w { openError := none, reads := [], metadata := .ok data.length, map := map }
    (fun r hr => by cases hr)
  rw [hm, OsFile.content] at this
  simp only [if_true, hmap] at this
  by_cases hl : data.length < 2 ^ (w.ptrBits - 1)
  · rw [if_neg (by omega)] at this
    rw [if_pos hl]
    simp only [e1, hi, List.zip_cons_cons, List.zip_nil_left, Bin.fileLoop, this, bind, Except.bind]
    rfl
  · rw [if_pos (by omega)] at this
    rw [if_neg hl]
    simp only [e1, hi, List.zip_cons_cons, List.zip_nil_left, Bin.fileLoop, this, bind, Except.bind]
    simp [String.append_assoc]

/-- Two short reads with an interruption between them; and a failure after some bytes have been read. -/
example (e : Machine) (w : World) :
    Bin.main e w sampleOpt ([.ok [1, 2, 3, 4], .interrupted, .ok [5]] ++ .ok [] :: []) [] =
      .ok { lines := [.out (String.ofList (hexOf (sampleOpt.digest [1, 2, 3, 4, 5])))], status := 0 } :=
  (C25_stdin e w sampleOpt (sampleOpt_ok w) rfl rfl [.ok [1, 2, 3, 4], .interrupted, .ok [5]] []
    (by simp [ReadResult.GoesOn]) (by simp [ReadsFit]) []).1
example (e : Machine) (w : World) :
    Bin.main e w sampleOpt ([.ok [1, 2, 3, 4]] ++ .error "I/O error" :: [.ok [5], .ok []]) [] =
      .ok { lines := [.err ("blake2: stdin: " ++ "I/O error")], status := 1 } :=
  (C25_stdin e w sampleOpt (sampleOpt_ok w) rfl rfl [.ok [1, 2, 3, 4]] [.ok [5], .ok []]
    (by simp [ReadResult.GoesOn]) (by simp [ReadsFit]) []).2 _
example (e : Machine) (path : String) (data : List Byte) (h : data.length < 2 ^ 31) :
    Bin.main e ⟨fun _ => "", 32⟩ { sampleOpt with inputs := [path], mmap := true } []
      [{ openError := none, reads := [], metadata := .ok data.length, map := fun n => .ok (data.take n) }] =
      .ok { lines := [.out (String.ofList (hexOf (sampleOpt.digest data)))], status := 0 } := by
  rw [C25_mmap e ⟨fun _ => "", 32⟩ { sampleOpt with inputs := [path], mmap := true } (sampleOpt_ok _) path rfl rfl [] data _
    (by simp)]
  exact congrArg Except.ok (if_pos h)

/-! ## C27 -/

theorem fileLoop_eq {o : Opt} {p : Bin.Params} (hp : Bin.PGood o p) (w : World) (fs : List (String × OsFile))
    (hf : ∀ f ∈ fs, ReadsFit f.2.reads) (rs : List (Except String (List Byte)))
    (hr : fs.map (fun f => f.2.content w o.mmap) = rs.map some) :
    Bin.fileLoop w o p fs = .ok (List.zipWith (fun f r => o.line f.1 r) fs rs,
      (List.zipWith (fun f r => o.line f.1 r) fs rs).any Line.isErr) := by
  induction fs generalizing rs with
  | nil => cases rs <;> first | rfl | cases hr
  | cons f fs ih =>
    cases rs with
    | nil => cases hr
    | cons r rs =>
      simp only [List.map_cons, List.cons.injEq] at hr
      have hh := Bin.hashFile_good hp w f.2 (hf f (by simp))
      have := ih (fun f hm => hf f (by simp [hm])) rs hr.2
      obtain ⟨path, f⟩ := f
      simp only [hr.1] at hh
      rw [Bin.fileLoop]
      cases r with
      | error m =>
        simp only at hh
        simp only [hh, this, bind, Except.bind, List.zipWith_cons_cons, Opt.line, List.any_cons, Line.isErr]
      | ok d =>
        simp only at hh
        by_cases hl : o.inputs.length > 1
        · simp only [hh, this, if_pos hl, bind, Except.bind, List.zipWith_cons_cons, Opt.line, List.any_cons, Line.isErr]
        · simp only [hh, this, if_neg hl, bind, Except.bind, List.zipWith_cons_cons, Opt.line, List.any_cons, Line.isErr]

/-- C27. With input files. Every file is attempted, in order, whatever became of the earlier ones; each gives one line, the hash (with
the path iff there are several inputs) or an error naming the path; and the exit status is 1 iff there was an error. -/
theorem C27_files (e : Machine) (w : World) (o : Opt) (ho : o.problem w = none) (hi : o.inputs ≠ []) (stdin : List ReadResult)
    (files : List OsFile) (hl : files.length = o.inputs.length) (hf : ∀ f ∈ files, ReadsFit f.reads)
    (rs : List (Except String (List Byte))) (hr : files.map (OsFile.content w o.mmap) = rs.map some) :
    Bin.main e w o stdin files =
      .ok { lines := List.zipWith o.line o.inputs rs, status := statusOf (List.zipWith o.line o.inputs rs) } := by
  obtain ⟨p, e1, hp⟩ := makeParams_ok e w o ho
  have h1 : (o.inputs.zip files).map (fun f => f.2.content w o.mmap) = rs.map some := by
    rw [← hr]
    have : (o.inputs.zip files).map (fun f => f.2.content w o.mmap) =
        ((o.inputs.zip files).map Prod.snd).map (OsFile.content w o.mmap) := by simp
    rw [this, List.map_snd_zip (by omega)]
  have h2 := fileLoop_eq hp w (o.inputs.zip files) (fun f hm => hf f.2 (List.of_mem_zip hm).2) rs h1
  have h3 : List.zipWith (fun f r => o.line f.1 r) (o.inputs.zip files) rs = List.zipWith o.line o.inputs rs := by
    rw [← List.map_fst_zip (l₁ := o.inputs) (l₂ := files) (by omega), List.zipWith_map_left, List.map_fst_zip (by omega)]
  rw [h3] at h2
  have h4 : o.inputs.isEmpty = false := by simpa using hi
  unfold Bin.main
  simp only [e1, h4, Bool.false_eq_true, if_false, h2, bind, Except.bind]
  rfl

/-- C27. Without input files: one line, for standard input. `--mmap` is then an error. -/
theorem C27_stdin (e : Machine) (w : World) (o : Opt) (ho : o.problem w = none) (hi : o.inputs = []) (stdin : List ReadResult)
    (hf : ReadsFit stdin) (files : List OsFile) (r : Except String (List Byte)) (hr : readOutcome stdin = some r) :
    Bin.main e w o stdin files =
      if o.mmap then .ok { lines := [.err "blake2: stdin: --mmap not supported for stdin"], status := 1 }
      else .ok { lines := [o.stdinLine r], status := statusOf [o.stdinLine r] } := by
  obtain ⟨p, e1, hp⟩ := makeParams_ok e w o ho
  have := Bin.hashStdin_good hp stdin hf
  rw [hr] at this
  unfold Bin.main
  cases hm : o.mmap with
  | true =>
    rw [hm] at this
    simp only [if_true] at this
    simp only [e1, hi, this, bind, Except.bind]
    rfl
  | false =>
    rw [hm] at this
    simp only [Bool.false_eq_true, if_false] at this
    cases r <;> simp only [e1, hi, this, bind, Except.bind] <;> rfl

example (e : Machine) (w : World) :
    Bin.main e w { mmap := true } [.ok [1, 2], .ok []] [] =
      .ok { lines := [.err "blake2: stdin: --mmap not supported for stdin"], status := 1 } :=
  C27_stdin e w { mmap := true } rfl rfl [.ok [1, 2], .ok []] (by simp [ReadsFit]) [] (.ok [1, 2]) rfl

/-- If the loop comes to an end, every file came to an end. -/
theorem fileLoop_ends {o : Opt} {p : Bin.Params} (hp : Bin.PGood o p) (w : World) (fs : List (String × OsFile))
    (hf : ∀ f ∈ fs, ReadsFit f.2.reads) (x : List Line × Bool) (h : Bin.fileLoop w o p fs = .ok x) :
    ∃ rs : List (Except String (List Byte)), fs.map (fun f => f.2.content w o.mmap) = rs.map some := by
  induction fs generalizing x with
  | nil => exact ⟨[], rfl⟩
  | cons f fs ih =>
    have hh := Bin.hashFile_good hp w f.2 (hf f (by simp))
    obtain ⟨path, f⟩ := f
    rw [Bin.fileLoop] at h
    cases hc : f.content w o.mmap with
    | none =>
      simp only [hc] at hh
      simp only [hh, bind, Except.bind] at h
      cases h
    | some r =>
      have : ∃ y, Bin.fileLoop w o p fs = .ok y := by
        cases hl : Bin.fileLoop w o p fs with
        | ok y => exact ⟨y, rfl⟩
        | error y =>
          exfalso
          cases r with
          | error m =>
            simp only [hc] at hh
            simp only [hh, hl, bind, Except.bind] at h
            cases h
          | ok d =>
            simp only [hc] at hh
            by_cases hl' : o.inputs.length > 1
            · simp only [hh, hl, if_pos hl', bind, Except.bind] at h
              cases h
            · simp only [hh, hl, if_neg hl', bind, Except.bind] at h
              cases h
      obtain ⟨y, hy⟩ := this
      obtain ⟨rs, hrs⟩ := ih (fun f hm => hf f (by simp [hm])) y hy
      exact ⟨r :: rs, by simp [hc, hrs]⟩

theorem Cli.statusOf_zipWith (o : Opt) (paths : List String) (rs : List (Except String (List Byte)))
    (h : paths.length = rs.length) :
    statusOf (List.zipWith o.line paths rs) = 0 ↔ ∀ r ∈ rs, ∃ d, r = .ok d := by
  induction paths generalizing rs with
  | nil =>
    cases rs with
    | nil => simp [statusOf]
    | cons r rs => simp at h
  | cons q paths ih =>
    cases rs with
    | nil => simp at h
    | cons r rs =>
      have := ih rs (by simpa using h)
      cases r with
      | error m => simp [statusOf, Opt.line, Line.isErr]
      | ok d =>
        rw [← List.forall_mem_cons (p := fun r => ∃ d, r = Except.ok d) |>.trans (and_iff_right ⟨d, rfl⟩)] at this
        rw [← this]
        simp only [statusOf, List.zipWith_cons_cons, List.any_cons, Opt.line]
        by_cases hl : o.inputs.length > 1
        · simp [hl, Line.isErr]
        · simp [hl, Line.isErr]

theorem Cli.statusOf_cases (l : List Line) : statusOf l = 0 ∨ statusOf l = 1 := by
  unfold statusOf; split <;> simp

/-- C27. The exit status is 0 iff the options are accepted and every input was hashed. -/
theorem C27_exit_status (e : Machine) (w : World) (o : Opt) (stdin : List ReadResult) (files : List OsFile) (out : Output)
    (hl : files.length = o.inputs.length) (hs : ReadsFit stdin) (hf : ∀ f ∈ files, ReadsFit f.reads)
    (ho : Bin.main e w o stdin files = .ok out) :
    (out.status = 0 ∨ out.status = 1) ∧
    (out.status = 0 ↔ o.problem w = none ∧
      (o.inputs = [] → o.mmap = false ∧ ∃ d, readOutcome stdin = some (.ok d)) ∧
      (∀ f ∈ files, ∃ d, f.content w o.mmap = some (.ok d))) := by
  cases hp : o.problem w with
  | some pr =>
    rw [C26_rejected e w o stdin files pr hp] at ho
    cases pr with
    | panic => cases ho
    | message m => cases ho; simp
  | none =>
    obtain ⟨p, e1, hpg⟩ := makeParams_ok e w o hp
    by_cases hi : o.inputs = []
    · have hfe : files = [] := by
        rw [hi] at hl; exact List.length_eq_zero_iff.1 hl
      subst hfe
      have key : ∃ r, o.mmap = true ∨ readOutcome stdin = some r := by
        have := Bin.hashStdin_good hpg stdin hs
        cases hm : o.mmap with
        | true => exact ⟨.ok [], Or.inl rfl⟩
        | false =>
          cases hr : readOutcome stdin with
          | some r => exact ⟨r, Or.inr rfl⟩
          | none =>
            rw [hm, hr] at this
            simp only [Bool.false_eq_true, if_false] at this
            unfold Bin.main at ho
            simp only [e1, hi, this, bind, Except.bind] at ho
            cases ho
      cases hm : o.mmap with
      | true =>
        have := Bin.hashStdin_good hpg stdin hs
        rw [hm] at this
        simp only [if_true] at this
        unfold Bin.main at ho
        simp only [e1, hi, this, bind, Except.bind] at ho
        cases ho
        simp [hi]
      | false =>
        obtain ⟨r, hr⟩ := key
        have hr : readOutcome stdin = some r := by simpa [hm] using hr
        rw [C27_stdin e w o hp hi stdin hs [] r hr, hm] at ho
        simp only [Bool.false_eq_true, if_false] at ho
        cases ho
        refine ⟨Cli.statusOf_cases _, ?_⟩
        cases r with
        | ok d => simp [hr, statusOf, Opt.stdinLine, Line.isErr]
        | error m => simp [hr, hi, statusOf, Opt.stdinLine, Line.isErr]
    · have hex : ∃ rs : List (Except String (List Byte)), files.map (OsFile.content w o.mmap) = rs.map some := by
        have h4 : o.inputs.isEmpty = false := by simpa using hi
        cases hfl : Bin.fileLoop w o p (o.inputs.zip files) with
        | error x =>
          unfold Bin.main at ho
          simp only [e1, h4, Bool.false_eq_true, if_false, hfl, bind, Except.bind] at ho
          cases ho
        | ok x =>
          obtain ⟨rs, hrs⟩ := fileLoop_ends hpg w _ (fun f hm => hf f.2 (List.of_mem_zip hm).2) x hfl
          refine ⟨rs, ?_⟩
          rw [← hrs]
          have : (o.inputs.zip files).map (fun f => f.2.content w o.mmap) =
              ((o.inputs.zip files).map Prod.snd).map (OsFile.content w o.mmap) := by simp
          rw [this, List.map_snd_zip (by omega)]
      obtain ⟨rs, hrs⟩ := hex
      rw [C27_files e w o hp hi stdin files hl hf rs hrs] at ho
      cases ho
      refine ⟨Cli.statusOf_cases _, ?_⟩
      have hlen : files.length = rs.length := by simpa using congrArg List.length hrs
      rw [Cli.statusOf_zipWith o _ _ (by omega)]
      simp only [hi, false_implies, true_and]
      constructor
      · intro h f hf
        have : f.content w o.mmap ∈ rs.map some := by rw [← hrs]; exact List.mem_map_of_mem hf
        obtain ⟨r, hr, e⟩ := List.mem_map.1 this
        obtain ⟨d, rfl⟩ := h r hr
        exact ⟨d, e.symm⟩
      · intro h r hr
        have : some r ∈ files.map (OsFile.content w o.mmap) := by rw [hrs]; exact List.mem_map_of_mem hr
        obtain ⟨f, hf, e⟩ := List.mem_map.1 this
        obtain ⟨d, hd⟩ := h f hf
        exact ⟨d, by rw [hd] at e; cases e; rfl⟩

/-- Three inputs, of which the second cannot be opened: the other two are hashed, and the status is 1. -/
example (e : Machine) (w : World) (m : Nat → Except String (List Byte)) :
    Bin.main e w { inputs := ["x", "y", "z"] } []
      [{ openError := none, reads := [.ok [1, 2], .ok [3], .ok []], metadata := .ok 3, map := m },
       { openError := some "No such file", reads := [], metadata := .error "", map := m },
       { openError := none, reads := [.interrupted, .ok []], metadata := .ok 0, map := m }] =
      .ok { lines := [.out (String.ofList (hexOf (hash .b (Config.default .b) [1, 2, 3])) ++ "  " ++ "x"),
                      .err ("blake2: " ++ "y" ++ ": " ++ "No such file"),
                      .out (String.ofList (hexOf (hash .b (Config.default .b) [])) ++ "  " ++ "z")],
            status := 1 } := by
  rw [C27_files e w { inputs := ["x", "y", "z"] } rfl (by simp) [] _ rfl (by simp [ReadsFit])
    [.ok [1, 2, 3], .error "No such file", .ok []] rfl]
  have dig : ∀ d, ({ inputs := ["x", "y", "z"] } : Opt).digest d = hash .b (Config.default .b) d := fun _ => rfl
  simp [Opt.line, dig, statusOf, Line.isErr]

end Blake2
