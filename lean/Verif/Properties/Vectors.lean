import Verif.Model.Vectors
import Verif.Properties.Tests
import Verif.Properties.Xof
import Verif.Properties.Params
/-!
# The tests that check vectors pass exactly when the vectors are right: C57
-/
namespace Blake2
open Spec

variable {a : Alg}

theorem unhex_length {t : List Char} {bytes : List Byte} (h : unhex t = some bytes) : t.length = 2 * bytes.length := by
  induction t using unhex.induct generalizing bytes with
  | case1 => cases h; rfl
  | case2 => cases h
  | case3 c d rest ih =>
    rw [unhex] at h
    simp only [Option.bind_eq_bind, Option.bind_eq_some_iff] at h
    obtain ⟨x, _, y, _, b, hb, e⟩ := h
    cases e
    rw [List.length_cons, List.length_cons, ih hb, List.length_cons]
    omega

theorem assertThat_eq (b : Bool) : assertThat b = if b then .ok () else .error .panic := rfl

theorem err_bind {α β : Type} (e : Fault) (f : α → Res β) : ((.error e : Res α) >>= f) = .error e := rfl

/-- What the tests do with the key. -/
theorem caseKey {α : Type} (text : List Char) (x : α) (f : List Byte → Res α) (hx : f [] = .ok x) :
    (if !text.isEmpty then (unhexUnwrap text >>= f) else .ok x) =
      match unhex text with
      | none => .error .panic
      | some k => f k := by
  cases text with
  | nil =>
    rw [show unhex [] = some [] from rfl]
    exact hx.symm
  | cons c t =>
    show (unhexUnwrap (c :: t) >>= f) = _
    unfold unhexUnwrap
    cases unhex (c :: t) <;> rfl

theorem setKey_nil (plat : Platform) : (Params.new a plat).setKey [] = .ok (Params.new a plat) := by cases a <;> rfl

theorem psetKey_nil (plat : Platform) : (PParams.new a plat).setKey [] = .ok (PParams.new a plat) := by cases a <;> rfl

/-- What a run of a test on one vector comes to. -/
def Verdict (r : Res Unit) (right : Prop) : Prop := (right → r = .ok ()) ∧ (¬ right → r = .error .panic)

theorem Verdict.of_iff {r : Res Unit} {p q : Prop} (h : Verdict r p) (e : p ↔ q) : Verdict r q :=
  ⟨fun hq => h.1 (e.2 hq), fun hq => h.2 fun hp => hq (e.1 hp)⟩

/-- The assertions of the tests: the expected output twice, and a count that agrees. -/
theorem verdict_asserts (out hex : List Char) (b : Bool) (hb : b = true) :
    Verdict (do
      assertThat (out == hex)
      assertThat (out == hex)
      assertThat b) (out = hex) := by
  subst hb
  by_cases h : out = hex
  · subst h
    simp only [beq_self_eq_true]
    exact ⟨fun _ => rfl, fun h => absurd trivial h⟩
  · rw [beq_eq_false_iff_ne.2 h]
    exact ⟨fun h' => absurd h' h, fun _ => rfl⟩

theorem noUnderflow {n : Nat} {key input : List Byte} (hn : n ≤ 2 ^ 10) (h : input.length < 2 ^ 63) : ¬ CountUnderflow a n key input := by
  intro hu
  have h2 := hu.2
  have : 2 ^ 64 ≤ 2 ^ (2 * a.w) := by cases a <;> decide
  rw [Nat.mod_eq_of_lt (by omega)] at h2
  omega

theorem vectorCaseSerial_verdict (plat : Platform) (dbg : Bool) (c : TestCase) (hl : c.input.length < 2 ^ 64) :
    Verdict (vectorCaseSerial a plat dbg c) (c.Right (.serial a)) := by
  unfold vectorCaseSerial
  cases hi : unhex c.input with
  | none =>
    refine ⟨fun ⟨_, _, _, _, h, _⟩ => (by rw [hi] at h; cases h), fun _ => ?_⟩
    unfold unhexUnwrap
    rw [hi]
    rfl
  | some input =>
    have e1 : unhexUnwrap c.input = .ok input := by unfold unhexUnwrap; rw [hi]
    have hlen := unhex_length hi
    rw [e1, ok_bind]
    simp only
    rw [caseKey c.key _ _ (setKey_nil plat)]
    cases hk : unhex c.key with
    | none => exact ⟨fun ⟨_, _, _, h, _⟩ => (by rw [hk] at h; cases h), fun _ => rfl⟩
    | some key =>
      simp only
      by_cases hr : key.length ≤ maxOut a
      · have right : c.Right (.serial a) ↔ c.out = hexOf (Spec.hash a { Config.default a with key := key } input) :=
          ⟨fun ⟨k, x, o, h1, h2, _, h4, h5⟩ => by
            rw [hk] at h1; rw [hi] at h2; cases h1; cases h2; cases h4; exact h5,
           fun h => ⟨key, input, _, hk, hi, hr, rfl, h⟩⟩
        obtain ⟨p, e, r, _⟩ := rep_run (rep_new a plat) (.key key) hr
        have e : (Params.new a plat).setKey key = .ok p := e
        have r : Rep a { Config.default a with key := key } p := r
        have hdl : ({ Config.default a with key := key } : Config).digestLength = maxOut a := rfl
        revert r hdl right
        generalize ({ Config.default a with key := key } : Config) = C
        intro right r hdl
        have d : ({ bytes := hashFull a C input, len := BitVec.ofNat 8 C.digestLength } : Hash a).toHex = .ok (hexOf (Spec.hash a C input)) := by
          unfold Hash.toHex
          rw [asBytes_config r.valid input, ok_bind]
          exact bytesToHex_eq _ (by
            rw [Spec.hash, List.length_take, hdl, ← maxOut_eq]
            exact Nat.min_le_left _ _)
        have s1 := HRel.create r
        have s2 := s1.feed input
        have f2 := s2.finalize
        have c2 := s2.count dbg (fun _ => noUnderflow (by cases a <;> decide) (by simp only [Hasher.feed, List.nil_append]; omega))
        have u2 := State.update_eq p.toState input s1.sane
        simp only [Hasher.feed, List.nil_append] at f2 c2
        rw [e, ok_bind, hash_eq r, ok_bind, r.hashLength, d, ok_bind, u2, ok_bind, f2, ok_bind, d, ok_bind, c2, ok_bind]
        exact (verdict_asserts _ _ _ (beq_self_eq_true _)).of_iff right.symm
      · have e : (Params.new a plat).setKey key = .error .panic := run_panics (Params.new a plat) (.key key) hr
        rw [e]
        exact ⟨fun ⟨_, _, _, h, _, h', _⟩ => (by rw [hk] at h; cases h; exact absurd h' hr), fun _ => rfl⟩

theorem vectorCaseTree_verdict (plat : Platform) (dbg : Bool) (c : TestCase) (hl : c.input.length < 2 ^ 64) :
    Verdict (vectorCaseTree a plat dbg c) (c.Right (.tree a)) := by
  unfold vectorCaseTree
  cases hi : unhex c.input with
  | none =>
    refine ⟨fun ⟨_, _, _, _, h, _⟩ => (by rw [hi] at h; cases h), fun _ => ?_⟩
    unfold unhexUnwrap
    rw [hi]
    rfl
  | some input =>
    have e1 : unhexUnwrap c.input = .ok input := by unfold unhexUnwrap; rw [hi]
    have hlen := unhex_length hi
    rw [e1, ok_bind]
    simp only
    rw [caseKey c.key _ _ (psetKey_nil plat)]
    cases hk : unhex c.key with
    | none => exact ⟨fun ⟨_, _, _, h, _⟩ => (by rw [hk] at h; cases h), fun _ => rfl⟩
    | some key =>
      simp only
      by_cases hr : key.length ≤ maxOut a
      · have right : c.Right (.tree a) ↔ c.out = hexOf (Spec.hashP a (maxOut a) key input) :=
          ⟨fun ⟨k, x, o, h1, h2, _, h4, h5⟩ => by
            rw [hk] at h1; rw [hi] at h2; cases h1; cases h2; cases h4; exact h5,
           fun h => ⟨key, input, _, hk, hi, hr, rfl, h⟩⟩
        obtain ⟨p, e, r, _⟩ := prep_run (c := PConfig.default a) (prep_new a plat) (.key key) hr
        have e : (PParams.new a plat).setKey key = .ok p := e
        have r : PRep a (maxOut a) key p := r
        have d : ({ bytes := treeFull a (maxOut a) key input, len := BitVec.ofNat 8 (maxOut a) } : Hash a).toHex =
            .ok (hexOf (Spec.hashP a (maxOut a) key input)) := by
          unfold Hash.toHex
          rw [asBytes_pconfig (Nat.le_refl _) input, ok_bind]
          exact bytesToHex_eq _ (by
            rw [Spec.hashP, List.length_take, ← maxOut_eq]
            exact Nat.min_le_left _ _)
        obtain ⟨s, es, r1⟩ := PHRel.create (c := { hashLength := maxOut a, key := key }) r
        obtain ⟨s2, es2, r2, _⟩ := r1.update input
        have f2 := r2.finalize
        have c2 := r2.count dbg (fun _ => noUnderflow (by cases a <;> decide) (by simp only [PHasher.feed, List.nil_append]; omega))
        simp only [PHasher.feed, List.nil_append] at f2 c2
        rw [e, ok_bind, PParams.hash_eq r, ok_bind, r.hashLength, d, ok_bind, es, ok_bind, es2, ok_bind, f2, ok_bind, d, ok_bind,
          c2, ok_bind]
        exact (verdict_asserts _ _ _ (beq_self_eq_true _)).of_iff right.symm
      · have e : (PParams.new a plat).setKey key = .error .panic := prun_panics (PParams.new a plat) (.key key) hr
        rw [e]
        exact ⟨fun ⟨_, _, _, h, _, h', _⟩ => (by rw [hk] at h; cases h; exact absurd h' hr), fun _ => rfl⟩

theorem vectorCaseXof_verdict (plat : Platform) (c : TestCase) (hl : c.out.length < 2 ^ 33) :
    Verdict (vectorCaseXof a plat c) (c.Right (.xof a)) := by
  unfold vectorCaseXof
  cases hi : unhex c.input with
  | none =>
    refine ⟨fun ⟨_, _, _, _, h, _⟩ => (by rw [hi] at h; cases h), fun _ => ?_⟩
    unfold unhexUnwrap
    rw [hi]
    rfl
  | some input =>
    have e1 : unhexUnwrap c.input = .ok input := by unfold unhexUnwrap; rw [hi]
    rw [e1, ok_bind]
    have hck := caseKey c.key ([] : List Byte) .ok rfl
    rw [show (unhexUnwrap c.key >>= Except.ok) = unhexUnwrap c.key from by unfold unhexUnwrap; cases unhex c.key <;> rfl] at hck
    rw [hck]
    cases hk : unhex c.key with
    | none => exact ⟨fun ⟨_, _, _, h, _⟩ => (by rw [hk] at h; cases h), fun _ => rfl⟩
    | some key =>
      simp only
      rw [ok_bind]
      by_cases hr : key.length ≤ maxOut a ∧ c.out.length / 2 < xofRange a
      · have right : c.Right (.xof a) ↔ c.out = hexOf (Spec.xof a key input (c.out.length / 2)) :=
          ⟨fun ⟨k, x, o, h1, h2, _, h4, h5⟩ => by
            rw [hk] at h1; rw [hi] at h2; cases h1; cases h2
            unfold Suite.output at h4
            simp only at h4
            rw [if_pos hr.2] at h4
            cases h4
            exact h5,
           fun h => ⟨key, input, _, hk, hi, hr.1, if_pos hr.2, h⟩⟩
        rw [(C53_blake2x plat input key hr.1 _ hr.2).1, ok_bind]
        refine Verdict.of_iff ?_ right.symm
        by_cases h : c.out = hexOf (Spec.xof a key input (c.out.length / 2))
        · exact ⟨fun _ => by rw [beq_iff_eq.2 h]; rfl, fun h' => absurd h h'⟩
        · exact ⟨fun h' => absurd h' h, fun _ => by rw [beq_eq_false_iff_ne.2 h]; rfl⟩
      · rw [C53_out_of_range plat input key _ (by omega) hr]
        refine ⟨fun ⟨k, x, o, h1, h2, h3, h4, h5⟩ => ?_, fun _ => rfl⟩
        rw [hk] at h1; cases h1
        unfold Suite.output at h4
        simp only at h4
        split at h4
        · next h => exact absurd ⟨h3, h⟩ hr
        · cases h4

/-- C57, one vector. Each of the six tests, on one vector, passes if the vector is right and otherwise panics, on every platform and
in every build. -/
theorem C57_vector (plat : Platform) (dbg : Bool) (suite : Suite) (c : TestCase) (h1 : c.input.length < 2 ^ 64) (h2 : c.out.length < 2 ^ 33) :
    (c.Right suite → vectorCase plat dbg suite c = .ok ()) ∧ (¬ c.Right suite → vectorCase plat dbg suite c = .error .panic) := by
  cases suite with
  | serial a => exact vectorCaseSerial_verdict plat dbg c h1
  | tree a => exact vectorCaseTree_verdict plat dbg c h1
  | xof a => exact vectorCaseXof_verdict plat c h2

/-- C57, a file of vectors. Each of the six tests passes exactly when all the vectors it selects are right and there are 512 of them;
otherwise it panics. So the verdict does not depend on the platform or on the build. -/
theorem C57_vectors (plat : Platform) (dbg : Bool) (suite : Suite) (cases : List TestCase)
    (h1 : ∀ c ∈ cases, c.input.length < 2 ^ 64 ∧ c.out.length < 2 ^ 33) :
    ((∀ c ∈ cases, c.hash = suite.name → c.Right suite) ∧ (cases.filter fun c => c.hash = suite.name).length = 512 →
      vectorTest plat dbg suite cases = .ok ()) ∧
    (¬ ((∀ c ∈ cases, c.hash = suite.name → c.Right suite) ∧ (cases.filter fun c => c.hash = suite.name).length = 512) →
      vectorTest plat dbg suite cases = .error .panic) := by
  have key : ∀ n, ((∀ c ∈ cases, c.hash = suite.name → c.Right suite) →
      cases.foldlM (init := n) (fun n case => (do
        if case.hash = suite.name then do
          vectorCase plat dbg suite case
          .ok (n + 1)
        else .ok n : Res Nat)) = .ok (n + (cases.filter fun c => c.hash = suite.name).length)) ∧
      (¬ (∀ c ∈ cases, c.hash = suite.name → c.Right suite) →
      cases.foldlM (init := n) (fun n case => (do
        if case.hash = suite.name then do
          vectorCase plat dbg suite case
          .ok (n + 1)
        else .ok n : Res Nat)) = .error .panic) := by
    induction cases with
    | nil => exact fun n => ⟨fun _ => rfl, fun h => absurd (by simp) h⟩
    | cons c cs ih =>
      intro n
      have hv := C57_vector plat dbg suite c (h1 c (by simp)).1 (h1 c (by simp)).2
      have ih := ih fun c hc => h1 c (by simp [hc])
      rw [List.foldlM_cons]
      by_cases hn : c.hash = suite.name
      · simp only [if_pos hn]
        rw [List.filter_cons_of_pos (by simpa using hn), List.length_cons]
        by_cases hr : c.Right suite
        · rw [hv.1 hr, ok_bind, ok_bind]
          refine ⟨fun h => ?_, fun h => (ih (n + 1)).2 fun h' => h ?_⟩
          · rw [(ih (n + 1)).1 fun x hx => h x (by simp [hx])]
            congr 1
            omega
          · intro x hx
            rcases List.mem_cons.1 hx with rfl | hx
            · exact fun _ => hr
            · exact h' x hx
        · rw [hv.2 hr]
          exact ⟨fun h => absurd (h c (by simp) hn) hr, fun _ => rfl⟩
      · simp only [if_neg hn]
        rw [List.filter_cons_of_neg (by simpa using hn), ok_bind]
        refine ⟨fun h => (ih n).1 fun x hx => h x (by simp [hx]), fun h => (ih n).2 fun h' => h ?_⟩
        intro x hx
        rcases List.mem_cons.1 hx with rfl | hx
        · exact fun e => absurd e hn
        · exact h' x hx
  unfold vectorTest
  refine ⟨fun h => ?_, fun h => ?_⟩
  · rw [(key 0).1 h.1, ok_bind, h.2]
    rfl
  · by_cases hr : ∀ c ∈ cases, c.hash = suite.name → c.Right suite
    · rw [(key 0).1 hr, ok_bind, Nat.zero_add, beq_eq_false_iff_ne.2 fun e => h ⟨hr, e.symm⟩]
      rfl
    · rw [(key 0).2 hr]
      rfl

/-- Files for which the test passes, and files for which it does not. -/
example (plat : Platform) (dbg : Bool) (n : Nat) :
    vectorTest plat dbg (.tree .s) (List.replicate n
      ⟨"blake2sp", "0aff".toList, "01".toList, hexOf (hashP .s 32 [1] [10, 255])⟩) = .ok () ↔ n = 512 := by
  have hr : TestCase.Right (.tree .s) ⟨"blake2sp", "0aff".toList, "01".toList, hexOf (hashP .s 32 [1] [10, 255])⟩ :=
    ⟨[1], [10, 255], hashP .s 32 [1] [10, 255], by decide, by decide, by decide, rfl, rfl⟩
  have hl : (hexOf (hashP .s 32 [1] [10, 255])).length < 2 ^ 33 := by
    have : (hashP .s 32 [1] [10, 255]).length ≤ 32 := by
      rw [Spec.hashP, List.length_take]
      exact Nat.min_le_left _ _
    rw [unhex_length (unhex_hexOf _)]
    omega
  have hc := C57_vectors plat dbg (.tree .s) (List.replicate n
      ⟨"blake2sp", "0aff".toList, "01".toList, hexOf (hashP .s 32 [1] [10, 255])⟩) (by
    intro c hc
    rw [List.mem_replicate] at hc
    obtain ⟨_, rfl⟩ := hc
    exact ⟨by show 4 < 2 ^ 64; decide, hl⟩)
  have hf : ((List.replicate n (⟨"blake2sp", "0aff".toList, "01".toList, hexOf (hashP .s 32 [1] [10, 255])⟩ : TestCase)).filter
      fun c => c.hash = (Suite.tree .s).name).length = n := by
    rw [List.filter_replicate_of_pos (by show decide ("blake2sp" = "blake2sp") = true; decide), List.length_replicate]
  rw [hf] at hc
  refine ⟨fun h => Classical.byContradiction fun hne => ?_, fun h => hc.1 ⟨?_, h⟩⟩
  · rw [hc.2 fun h' => hne h'.2] at h
    cases h
  · intro c hc _
    rw [List.mem_replicate] at hc
    obtain ⟨_, rfl⟩ := hc
    exact hr

end Blake2
