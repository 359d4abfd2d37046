import Verif.Model.UnitTests
import Verif.Properties.Vectors
import Verif.Properties.GutsTests
/-!
# The unit tests pass exactly when the outputs they expect are right, and pass: C63
-/
namespace Blake2
open Spec

variable {a : Alg}

theorem Verdict.and {r r' : Res Unit} {p q : Prop} (h : Verdict r p) (h' : Verdict r' q) :
    Verdict (r >>= fun _ => r') (p ∧ q) := by
  refine ⟨fun ⟨hp, hq⟩ => ?_, fun hn => ?_⟩
  · rw [h.1 hp, ok_bind, h'.1 hq]
  · by_cases hp : p
    · rw [h.1 hp, ok_bind, h'.2 fun hq => hn ⟨hp, hq⟩]
    · rw [h.2 hp]
      rfl

theorem Verdict.forM {α : Type} {f : α → Res Unit} {P : α → Prop} {l : List α} (h : ∀ x ∈ l, Verdict (f x) (P x)) :
    Verdict (l.forM f) (∀ x ∈ l, P x) := by
  induction l with
  | nil => exact ⟨fun _ => rfl, fun h => absurd (by simp) h⟩
  | cons x l ih =>
    have := (h x (by simp)).and (ih fun y hy => h y (by simp [hy]))
    exact Verdict.of_iff this (by simp)

theorem verdict_assert (x y : List Char) : Verdict (assertThat (x == y)) (y = x) := by
  by_cases h : y = x
  · subst h
    rw [beq_self_eq_true]
    exact ⟨fun _ => rfl, fun h => absurd rfl h⟩
  · rw [beq_eq_false_iff_ne.2 fun e => h e.symm]
    exact ⟨fun h' => absurd h' h, fun _ => rfl⟩

theorem toHex_config {c : Config} (h : c.Valid a) (msg : List Byte) :
    ({ bytes := hashFull a c msg, len := BitVec.ofNat 8 c.digestLength } : Hash a).toHex = .ok (hexOf (Spec.hash a c msg)) := by
  unfold Hash.toHex
  rw [asBytes_config h msg, ok_bind]
  refine bytesToHex_eq _ ?_
  rw [Spec.hash, List.length_take, ← maxOut_eq]
  have := h.2.1
  omega

theorem toHex_pconfig {n : Nat} {key : List Byte} (h : n ≤ maxOut a) (msg : List Byte) :
    ({ bytes := treeFull a n key msg, len := BitVec.ofNat 8 n } : Hash a).toHex = .ok (hexOf (Spec.hashP a n key msg)) := by
  unfold Hash.toHex
  rw [asBytes_pconfig h msg, ok_bind]
  refine bytesToHex_eq _ ?_
  rw [Spec.hashP, List.length_take, ← maxOut_eq]
  omega

theorem hrel_new (a : Alg) (plat : Platform) : HRel a { config := Config.default a, msg := [] } (State.new a plat) :=
  HRel.create (rep_new a plat)

theorem HRel.assertFinalize {h : Hasher} {s : State a} (r : HRel a h s) (out : List Char) :
    Verdict (assertFinalize s out) (out = hexOf (Spec.hash a h.config h.msg)) := by
  unfold Blake2.assertFinalize
  rw [r.finalize, ok_bind, toHex_config r.2.2.2.2, ok_bind]
  exact verdict_assert _ _

theorem updateBytewise_eq (dbg : Bool) (x : List Byte) : ∀ (h : Hasher) (s : State a), HRel a h s → h.config.key = [] →
    h.msg.length + x.length < 2 ^ (2 * a.w) →
    ∃ s', updateBytewise dbg x s (BitVec.ofNat _ h.msg.length) = .ok s' ∧ HRel a (h.feed x) s' := by
  induction x with
  | nil =>
    intro h s r _ _
    refine ⟨s, rfl, ?_⟩
    unfold Hasher.feed
    rw [List.append_nil]
    exact r
  | cons b bs ih =>
    intro h s r hk hl
    rw [List.length_cons] at hl
    have r1 := r.feed [b]
    obtain ⟨s', e, r'⟩ := ih _ _ r1 hk (by simp only [Hasher.feed, List.length_append, List.length_cons, List.length_nil]; omega)
    refine ⟨s', ?_, ?_⟩
    · have hm : (h.feed [b]).msg.length = h.msg.length + 1 := by simp [Hasher.feed]
      have hc := r1.count dbg fun _ hu => hu.1 hk
      have hi : incCount (a := a) dbg (BitVec.ofNat _ h.msg.length) = .ok (BitVec.ofNat _ (h.msg.length + 1)) := by
        unfold incCount
        rw [if_neg, BitVec.ofNat_add]
        · rfl
        · rw [Bool.and_eq_true, beq_iff_eq]
          intro ⟨_, e⟩
          have := congrArg BitVec.toNat e
          rw [BitVec.toNat_ofNat, BitVec.toNat_allOnes, Nat.mod_eq_of_lt (by omega)] at this
          omega
      rw [hm] at hc e
      unfold updateBytewise
      rw [State.update_eq s [b] r.sane, ok_bind, hi, ok_bind, hc, ok_bind, beq_self_eq_true, assertThat_true, ok_bind]
      exact e
    · unfold Hasher.feed at r' ⊢
      rw [List.append_assoc] at r'
      exact r'

/-- C63, `test_update_state`. Whatever table of inputs and expected hashes it is given, it passes if all of them are right and
otherwise panics, on every platform and in every build. -/
theorem C63_update_state (plat : Platform) (dbg : Bool) (io : List (List Byte × List Char)) (hl : ∀ q ∈ io, q.1.length < 2 ^ 64) :
    ((∀ q ∈ io, q.2 = hexOf (Spec.hash a (Config.default a) q.1)) → testUpdateState a plat dbg io = .ok ()) ∧
    (¬ (∀ q ∈ io, q.2 = hexOf (Spec.hash a (Config.default a) q.1)) → testUpdateState a plat dbg io = .error .panic) := by
  have hw : 2 ^ 64 ≤ 2 ^ (2 * a.w) := by cases a <;> decide
  have r0 := hrel_new a plat
  have hd := r0.2.2.2.2
  have v : Verdict (testUpdateState a plat dbg io) ((∀ q ∈ io, q.2 = hexOf (Spec.hash a (Config.default a) q.1)) ∧
      (∀ q ∈ io, q.2 = hexOf (Spec.hash a (Config.default a) q.1)) ∧
      (∀ q ∈ io, q.2 = hexOf (Spec.hash a (Config.default a) q.1))) := by
    unfold testUpdateState
    refine Verdict.and (Verdict.forM fun q hq => ?_) (Verdict.and (Verdict.forM fun q hq => ?_) (Verdict.forM fun q hq => ?_))
    · unfold blake2
      have hh := hash_eq (rep_new a plat) q.1
      rw [(rep_new a plat).hashLength] at hh
      rw [hh, ok_bind, toHex_config hd, ok_bind]
      exact verdict_assert _ _
    · have r1 := r0.feed (q.1.take (q.1.length / 2))
      have r2 := r1.feed (q.1.drop (q.1.length / 2))
      have c1 := r1.count dbg fun _ hu => hu.1 rfl
      have c2 := r2.count dbg fun _ hu => hu.1 rfl
      have l1 : (BitVec.ofNat (2 * a.w) (q.1.length / 2) == BitVec.ofNat (2 * a.w)
          (Hasher.feed (q.1.take (q.1.length / 2)) { config := Config.default a, msg := [] }).msg.length) = true := by
        rw [beq_iff_eq]
        simp only [Hasher.feed, List.nil_append, List.length_take]
        congr 1
        omega
      have m2 : (Hasher.feed (q.1.drop (q.1.length / 2)) (Hasher.feed (q.1.take (q.1.length / 2))
          { config := Config.default a, msg := [] })) = { config := Config.default a, msg := q.1 } := by
        simp only [Hasher.feed, List.nil_append, List.take_append_drop]
      rw [m2] at r2 c2
      have t1 : sliceTo q.1 (q.1.length / 2) = .ok (q.1.take (q.1.length / 2)) := by
        rw [sliceTo, if_pos (by omega)]
      have t2 : sliceFrom q.1 (q.1.length / 2) = .ok (q.1.drop (q.1.length / 2)) := by
        rw [sliceFrom, if_pos (by omega)]
      simp only
      rw [t1, ok_bind, State.update_eq _ _ r0.sane, ok_bind, c1, ok_bind, l1, assertThat_true, ok_bind, t2, ok_bind,
        State.update_eq _ _ r1.sane, ok_bind, c2, ok_bind, beq_self_eq_true, assertThat_true, ok_bind]
      exact r2.assertFinalize _
    · obtain ⟨s, e, r⟩ := updateBytewise_eq dbg q.1 _ _ r0 rfl (by
        have := hl q hq
        show 0 + q.1.length < _
        omega)
      rw [show (0 : Count a) = BitVec.ofNat _ ([] : List Byte).length from rfl, e, ok_bind]
      exact r.assertFinalize _
  exact v.of_iff (by simp)

/-- The right text for one input; and a wrong one. -/
example : testUpdateState .s .AVX2 true [([1, 2, 3], hexOf (Spec.hash .s (Config.default .s) [1, 2, 3]))] = .ok () ∧
    testUpdateState .s .AVX2 true [([1, 2, 3], ['0'])] = .error .panic :=
  ⟨(C63_update_state (a := .s) .AVX2 true [([1, 2, 3], _)] (by simp)).1 (by simp),
    (C63_update_state (a := .s) .AVX2 true [([1, 2, 3], ['0'])] (by simp)).2 (by
      intro h
      have odd : ∀ l : List Byte, ['0'] ≠ hexOf l
        | [] => by simp [hexOf]
        | _ :: _ => by simp [hexOf]
      exact odd _ (h _ (List.mem_singleton.2 rfl)))⟩

/-- C63, `test_multiple_finalizes`, for every input and expected hashes. -/
theorem C63_multiple_finalizes (plat : Platform) (x : List Byte) (out₀ out : List Char) :
    (out₀ = hexOf (Spec.hash a (Config.default a) []) ∧ out = hexOf (Spec.hash a (Config.default a) x) →
      testMultipleFinalizes a plat x out₀ out = .ok ()) ∧
    (¬ (out₀ = hexOf (Spec.hash a (Config.default a) []) ∧ out = hexOf (Spec.hash a (Config.default a) x)) →
      testMultipleFinalizes a plat x out₀ out = .error .panic) := by
  have r0 := hrel_new a plat
  have r1 := r0.feed x
  have v0 := r0.assertFinalize out₀
  have v1 := r1.assertFinalize out
  unfold testMultipleFinalizes
  simp only
  rw [State.update_eq _ _ r0.sane, ok_bind]
  exact (v0.and (v0.and (v0.and (v1.and (v1.and v1))))).of_iff (by
    simp only [Hasher.feed, List.nil_append]
    constructor
    · exact fun h => ⟨h.1, h.2.2.2.1⟩
    · exact fun h => ⟨h.1, h.1, h.1, h.2, h.2, h.2⟩)

/-- C63, `test_write`, for every input and expected hash. -/
theorem C63_write (plat : Platform) (x : List Byte) (out : List Char) :
    (out = hexOf (Spec.hash a (Config.default a) x) → testWrite a plat x out = .ok ()) ∧
    (¬ out = hexOf (Spec.hash a (Config.default a) x) → testWrite a plat x out = .error .panic) := by
  have r0 := hrel_new a plat
  have r1 := r0.feed x
  unfold testWrite
  have e : writeAll State.write x.length (State.new a plat) x = .ok (some (State.upd (State.new a plat) x)) := by
    cases x with
    | nil =>
      have := State.update_eq (State.new a plat) [] r0.sane
      rw [C29_empty_update (State.new a plat) (reachable_new plat)] at this
      cases this
      rfl
    | cons b bs =>
      refine writeAll_ok _ _ _ _ ?_ (by simp)
      unfold State.write
      rw [State.update_eq _ _ r0.sane]
      rfl
  rw [e, ok_bind]
  exact r1.assertFinalize out

theorem build_out_of_range (p : Params a) (calls : List Setter) (h : ¬ ∀ x ∈ calls, x.InRange a) : p.build calls = .error .panic := by
  induction calls generalizing p with
  | nil => exact absurd (by simp) h
  | cons c cs ih =>
    unfold Params.build
    rw [List.foldlM_cons]
    by_cases hc : c.InRange a
    · obtain ⟨p', e⟩ := (C16_panics_iff p c).2 hc
      rw [e, ok_bind]
      exact ih p' fun h' => h (by simpa using ⟨hc, h'⟩)
    · rw [(C16_panics_iff p c).1.2 hc]
      rfl

theorem pbuild_out_of_range (p : PParams a) (calls : List PSetter) (h : ¬ ∀ x ∈ calls, x.InRange a) :
    p.build calls = .error .panic := by
  induction calls generalizing p with
  | nil => exact absurd (by simp) h
  | cons c cs ih =>
    unfold PParams.build
    rw [List.foldlM_cons]
    by_cases hc : c.InRange a
    · obtain ⟨p', e⟩ := (C16_tree_panics_iff p c).2 hc
      rw [e, ok_bind]
      exact ih p' fun h' => h (by simpa using ⟨hc, h'⟩)
    · rw [(C16_tree_panics_iff p c).1.2 hc]
      rfl

/-- C63, `test_all_parameters`, for every sequence of builder calls, input and expected hash. -/
theorem C63_all_parameters (plat : Platform) (calls : List Setter) (x : List Byte) (out : List Char) :
    ((∀ c ∈ calls, c.InRange a) ∧ out = hexOf (Spec.hash a (configOf a calls) x) →
      testAllParameters a plat calls x out = .ok ()) ∧
    (¬ ((∀ c ∈ calls, c.InRange a) ∧ out = hexOf (Spec.hash a (configOf a calls) x)) →
      testAllParameters a plat calls x out = .error .panic) := by
  unfold testAllParameters
  by_cases hr : ∀ c ∈ calls, c.InRange a
  · obtain ⟨p, e⟩ := C03_nonvacuous (a := a) plat calls hr
    have r := (built_rep e).1
    have r0 := HRel.create r
    have r1 := r0.feed x
    have hh := hash_eq r x
    rw [r.hashLength] at hh
    rw [e, ok_bind, State.update_eq _ _ r0.sane, ok_bind, hh, ok_bind, toHex_config r.valid, ok_bind]
    have v2 := verdict_assert out (hexOf (Spec.hash a (configOf a calls) x))
    exact ((r1.assertFinalize out).and v2).of_iff
      ⟨fun h => ⟨hr, h.1⟩, fun h => ⟨h.2, h.2.symm⟩⟩
  · rw [build_out_of_range _ _ hr]
    exact ⟨fun h => absurd h.1 hr, fun _ => rfl⟩

/-- C63, `test_all_parameters_blake2bp` (`_blake2sp`), for every sequence of builder calls, input and expected hash. -/
theorem C63_all_parameters_tree (plat : Platform) (calls : List PSetter) (x : List Byte) (out : List Char) :
    ((∀ c ∈ calls, c.InRange a) ∧ out = hexOf (Spec.hashP a (pconfigOf a calls).hashLength (pconfigOf a calls).key x) →
      testAllParametersTree a plat calls x out = .ok ()) ∧
    (¬ ((∀ c ∈ calls, c.InRange a) ∧ out = hexOf (Spec.hashP a (pconfigOf a calls).hashLength (pconfigOf a calls).key x)) →
      testAllParametersTree a plat calls x out = .error .panic) := by
  unfold testAllParametersTree
  by_cases hr : ∀ c ∈ calls, c.InRange a
  · obtain ⟨p, e, r, _⟩ := prep_build (c := PConfig.default a) (prep_new a plat) calls hr
    have r : PRep a (pconfigOf a calls).hashLength (pconfigOf a calls).key p := r
    obtain ⟨s, es, r0⟩ := PHRel.create (c := pconfigOf a calls) r
    obtain ⟨s1, es1, r1, _⟩ := r0.update x
    have f1 := r1.finalize
    simp only [PHasher.feed, List.nil_append] at f1
    have hh := PParams.hash_eq r x
    rw [r.hashLength] at hh
    rw [e, ok_bind, es, ok_bind, es1, ok_bind, f1, ok_bind, toHex_pconfig r.le, ok_bind, hh, ok_bind, toHex_pconfig r.le, ok_bind]
    have v := verdict_assert out (hexOf (Spec.hashP a (pconfigOf a calls).hashLength (pconfigOf a calls).key x))
    exact (v.and v).of_iff ⟨fun h => ⟨hr, h.1.symm⟩, fun h => ⟨h.2.symm, h.2.symm⟩⟩
  · rw [pbuild_out_of_range _ _ hr]
    exact ⟨fun h => absurd h.1 hr, fun _ => rfl⟩

/-- C63, the tests of single builder calls: a call marked as panicking passes exactly if its argument is out of range, any other
exactly if it is in range. -/
theorem C63_setter_tests (plat : Platform) (c : Setter) (d : PSetter) :
    ((testSetter a plat c = .ok () ↔ c.InRange a) ∧ (shouldPanic (testSetter a plat c) = .ok () ↔ ¬ c.InRange a)) ∧
    ((testPSetter a plat d = .ok () ↔ d.InRange a) ∧ (shouldPanic (testPSetter a plat d) = .ok () ↔ ¬ d.InRange a)) := by
  constructor
  · by_cases h : c.InRange a
    · obtain ⟨p, e⟩ := C03_nonvacuous (a := a) plat [c] (by simpa using h)
      have : testSetter a plat c = .ok () := by unfold testSetter; rw [e]; rfl
      rw [this]
      exact ⟨⟨fun _ => h, fun _ => rfl⟩, ⟨fun h' => (by cases h'), fun h' => absurd h h'⟩⟩
    · have : testSetter a plat c = .error .panic := by
        unfold testSetter; rw [build_out_of_range _ _ (by simpa using h)]; rfl
      rw [this]
      exact ⟨⟨fun h' => (by cases h'), fun h' => absurd h' h⟩, ⟨fun _ => h, fun _ => rfl⟩⟩
  · by_cases h : d.InRange a
    · obtain ⟨p, e, _⟩ := prep_build (c := PConfig.default a) (prep_new a plat) [d] (by simpa using h)
      have : testPSetter a plat d = .ok () := by unfold testPSetter; rw [e]; rfl
      rw [this]
      exact ⟨⟨fun _ => h, fun _ => rfl⟩, ⟨fun h' => (by cases h'), fun h' => absurd h h'⟩⟩
    · have : testPSetter a plat d = .error .panic := by
        unfold testPSetter; rw [pbuild_out_of_range _ _ (by simpa using h)]; rfl
      rw [this]
      exact ⟨⟨fun h' => (by cases h'), fun h' => absurd h' h⟩, ⟨fun _ => h, fun _ => rfl⟩⟩

/-- C63, `test_hash_from`, for every input. -/
theorem C63_hash_from (plat : Platform) (dbg : Bool) (x : List Byte) : testHashFrom a plat dbg x = .ok () := by
  have hh := hash_eq (rep_new a plat) x
  rw [(rep_new a plat).hashLength] at hh
  have hd : (Config.default a).digestLength = a.outbytes := maxOut_eq a
  have hb := asBytes_config (rep_new a plat).valid x
  rw [hd] at hh hb
  unfold testHashFrom blake2
  rw [hh, ok_bind]
  have h1 : ({ bytes := hashFull a (Config.default a) x, len := BitVec.ofNat 8 a.outbytes } : Hash a).asArray dbg =
      .ok (hashFull a (Config.default a) x) := by
    unfold Hash.asArray
    rw [if_neg]
    cases a <;> cases dbg <;> exact Bool.false_ne_true
  rw [h1, ok_bind, show (Hash.ofArray (hashFull a (Config.default a) x) : Hash a) =
    { bytes := hashFull a (Config.default a) x, len := BitVec.ofNat 8 a.outbytes } from rfl, eqHash_self hb, ok_bind,
    assertThat_true, ok_bind, ok_bind]
  simp only [show (Hash.ofArray (hashFull a (Config.default a) x) : Hash a) =
    { bytes := hashFull a (Config.default a) x, len := BitVec.ofNat 8 a.outbytes } from rfl]
  rw [eqHash_self hb]
  rfl

theorem mapM_exists {α β : Type} (f : α → Res β) (P : β → Prop) (l : List α) (h : ∀ x ∈ l, ∃ y, f x = .ok y ∧ P y) :
    ∃ out, l.mapM f = .ok out ∧ out.length = l.length ∧ ∀ y ∈ out, P y := by
  induction l with
  | nil => exact ⟨[], rfl, rfl, by simp⟩
  | cons x l ih =>
    obtain ⟨y, e, hy⟩ := h x (by simp)
    obtain ⟨out, e', hl, ho⟩ := ih fun z hz => h z (by simp [hz])
    refine ⟨y :: out, ?_, by simp [hl], ?_⟩
    · rw [List.mapM_cons, e, ok_bind, e']
      rfl
    · intro z hz
      rcases List.mem_cons.1 hz with rfl | hz
      · exact hy
      · exact ho z hz

theorem manyParams_ok (a : Alg) (plat : Platform) (len : Nat) (hl : len ≤ 2 ^ 48) :
    ∃ ps, manyParams a plat len = .ok ps ∧ ps.length = len ∧ ∀ p ∈ ps, Built p := by
  have h := mapM_exists (fun i => do
    let p ← (Params.new a plat).setNodeOffset (BitVec.ofNat 64 i)
    if i % 2 = 1 then do
      let p ← p.setLastNode true
      p.setKey [0x66, 0x6f, 0x6f]
    else .ok p) Built (List.range len) (by
    intro i hi
    rw [List.mem_range] at hi
    have hn : (Setter.nodeOffset (BitVec.ofNat 64 i)).InRange a := by
      show (BitVec.ofNat 64 i).toNat < 2 ^ (8 * nodeOffsetBytes a)
      have : 2 ^ 48 ≤ 2 ^ (8 * nodeOffsetBytes a) := by cases a <;> decide
      rw [BitVec.toNat_ofNat, Nat.mod_eq_of_lt (by omega)]
      omega
    by_cases ho : i % 2 = 1
    · simp only [if_pos ho]
      obtain ⟨p, e⟩ := C03_nonvacuous (a := a) plat [.nodeOffset (BitVec.ofNat 64 i), .lastNode true, .key [0x66, 0x6f, 0x6f]] (by
        intro c hc
        simp only [List.mem_cons, List.not_mem_nil, or_false] at hc
        rcases hc with rfl | rfl | rfl
        · exact hn
        · trivial
        · show 3 ≤ maxOut a
          cases a <;> decide)
      refine ⟨p, ?_, _, _, e⟩
      rw [← e]
      simp only [Params.build, List.foldlM_cons, List.foldlM_nil, Setter.run, bind_pure]
    · simp only [if_neg ho]
      obtain ⟨p, e⟩ := C03_nonvacuous (a := a) plat [.nodeOffset (BitVec.ofNat 64 i)] (by simpa using hn)
      exact ⟨p, e, _, _, e⟩)
  obtain ⟨ps, e, h1, h2⟩ := h
  exact ⟨ps, e, by rw [h1, List.length_range], h2⟩

theorem manyInputs_ok (a : Alg) (len start : Nat) (input : List Byte) (hl : input.length = len * a.bb) :
    ∃ xs, manyInputs a len start input = .ok xs ∧ xs.length = len ∧ ∀ x ∈ xs, x.length ≤ len * a.bb := by
  obtain ⟨xs, e, h1, h2⟩ := mapM_exists (fun i => sliceTo input ((i + start) % len * a.bb)) (fun x => x.length ≤ len * a.bb)
    (List.range len) (by
      intro i hi
      rw [List.mem_range] at hi
      have := Nat.mul_le_mul_right a.bb (Nat.le_of_lt (Nat.mod_lt (i + start) (Nat.lt_of_le_of_lt (Nat.zero_le _) hi)))
      refine ⟨input.take ((i + start) % len * a.bb), ?_, ?_⟩
      · rw [sliceTo, if_pos (by omega)]
      · rw [List.length_take]
        omega)
  exact ⟨xs, e, by rw [h1, List.length_range], h2⟩

theorem paint_ok (a : Alg) (len : Nat) (hl : len * a.bb < 2 ^ 31) :
    ∃ input, paintTestInput (List.replicate (len * a.bb) 0) = .ok input ∧ input.length = len * a.bb := by
  obtain ⟨out, e, h⟩ := paintIter_ok ((List.replicate (len * a.bb) (0 : Byte)).length + 1) 0 1 (List.replicate (len * a.bb) 0) (by omega)
    (by rw [List.length_replicate]; show 1 + _ < _; omega)
  exact ⟨out, e, by rw [h, List.length_replicate]⟩

/-- C63, `test_hash_many`, for any number of inputs that can be painted. -/
theorem C63_test_hash_many (plat : Platform) (dbg : Bool) (len : Nat) (hl : len * a.bb < 2 ^ 31) :
    testHashMany a plat dbg len = .ok () := by
  have hb : 1 ≤ a.bb := by cases a <;> decide
  have hlen : len ≤ len * a.bb := Nat.le_mul_of_pos_right _ hb
  obtain ⟨input, e0, l0⟩ := paint_ok a len hl
  unfold testHashMany testHashManyOf
  rw [e0, ok_bind]
  apply forM_ok
  intro start _
  obtain ⟨xs, e1, l1, _⟩ := manyInputs_ok a len start input l0
  obtain ⟨ps, e2, l2, b2⟩ := manyParams_ok a plat len (by omega)
  have hbz : ∀ q ∈ ps.zip xs, Built q.1 := fun q hq => b2 _ (List.of_mem_zip hq).1
  obtain ⟨jobs, out, e3, e4, hlo, e5⟩ := C10_hash_many (ps.zip xs) hbz
  rw [e1, ok_bind, e2, ok_bind, e3, ok_bind, e4, ok_bind]
  apply forM_ok
  intro i hi
  rw [List.mem_range] at hi
  have g1 : getState ps i = .ok ps[i] := by simp [getState, l2, hi]
  have g2 : getState xs i = .ok xs[i] := by simp [getState, l1, hi]
  obtain ⟨j, h, h1, h2, h3⟩ := e5 i ps[i] xs[i] (by simp [l1, l2, hi])
  have g3 : getState out i = .ok j := by unfold getState; rw [h1]
  obtain ⟨c, r⟩ := (b2 _ (List.getElem_mem (by omega : i < ps.length))).rep
  have h5 : h.asBytes = .ok (Spec.hash a c xs[i]) := by
    rw [hash_eq r] at h2
    cases h2
    exact asBytes_full r _
  rw [g1, ok_bind, g2, ok_bind, h2, ok_bind, g3, ok_bind, h3, ok_bind, eqHash_self h5, ok_bind]
  rfl

example : testHashMany .b .AVX2 true 17 = .ok () := C63_test_hash_many .AVX2 true 17 (by decide)

/-- C63, `test_update_many`, for any number of inputs that can be painted. -/
theorem C63_test_update_many (plat : Platform) (dbg : Bool) (len : Nat) (hl : len * a.bb < 2 ^ 31) :
    testUpdateMany a plat dbg len = .ok () := by
  have hb : 1 ≤ a.bb := by cases a <;> decide
  have hlen : len ≤ len * a.bb := Nat.le_mul_of_pos_right _ hb
  obtain ⟨input, e0, l0⟩ := paint_ok a len hl
  unfold testUpdateMany testUpdateManyOf
  rw [e0, ok_bind]
  apply forM_ok
  intro start _
  obtain ⟨xs, e1, l1, hx⟩ := manyInputs_ok a len start input l0
  obtain ⟨ps, e2, l2, b2⟩ := manyParams_ok a plat len (by omega)
  have hrep : ∀ p ∈ ps, ∃ c, Rep a c p := fun p hp => (b2 p hp).rep
  have z1 : (ps.map Params.toState).zip xs = (ps.zip xs).map fun q => (q.1.toState, q.2) := by
    rw [List.zip_map_left]; rfl
  have z2 : ((ps.zip xs).map fun q => State.upd q.1.toState q.2).zip xs =
      (ps.zip xs).map fun q => (State.upd q.1.toState q.2, q.2) := by
    apply List.ext_getElem
    · simp [l1, l2]
    · intro i _ _; simp
  have h2 : updateMany ((ps.map Params.toState).zip xs) = .ok ((ps.zip xs).map fun q => State.upd q.1.toState q.2) := by
    rw [z1, updateMany_eq, List.map_map]
    · rfl
    · intro q hq
      obtain ⟨q, hq', rfl⟩ := List.mem_map.1 hq
      obtain ⟨c, r⟩ := hrep _ (List.of_mem_zip hq').1
      exact (HRel.create r).sane
  have h3 : updateMany (((ps.zip xs).map fun q => State.upd q.1.toState q.2).zip xs) =
      .ok ((ps.zip xs).map fun q => State.upd (State.upd q.1.toState q.2) q.2) := by
    rw [z2, updateMany_eq, List.map_map]
    · rfl
    · intro q hq
      obtain ⟨q, hq', rfl⟩ := List.mem_map.1 hq
      obtain ⟨c, r⟩ := hrep _ (List.of_mem_zip hq').1
      exact ((HRel.create r).feed _).sane
  rw [e1, ok_bind, e2, ok_bind]
  simp only
  rw [h2, ok_bind, h3, ok_bind]
  apply forM_ok
  intro i hi
  rw [List.mem_range] at hi
  have g1 : getState ps i = .ok ps[i] := by simp [getState, l2, hi]
  have g2 : getState xs i = .ok xs[i] := by simp [getState, l1, hi]
  have g3 : getState ((ps.zip xs).map fun q => State.upd (State.upd q.1.toState q.2) q.2) i =
      .ok (State.upd (State.upd ps[i].toState xs[i]) xs[i]) := by simp [getState, l1, l2, hi]
  obtain ⟨c, r⟩ := hrep _ (List.getElem_mem (by omega : i < ps.length))
  have r0 := HRel.create r
  have r1 := r0.feed xs[i]
  have r2 := r1.feed xs[i]
  have hxi := hx _ (List.getElem_mem (by omega : i < xs.length))
  have hw : 2 ^ 64 ≤ 2 ^ (2 * a.w) := by cases a <;> decide
  have hbb : bb a ≤ 2 ^ 10 := by cases a <;> decide
  have hc := r2.count dbg fun _ => noUnderflow hbb (by
    simp only [Hasher.feed, List.nil_append, List.length_append]
    omega)
  have hm : (2 * BitVec.ofNat (2 * a.w) xs[i].length == BitVec.ofNat (2 * a.w)
      (Hasher.feed xs[i] (Hasher.feed xs[i] { config := c, msg := [] })).msg.length) = true := by
    rw [beq_iff_eq]
    simp only [Hasher.feed, List.nil_append, List.length_append]
    rw [← Nat.two_mul, BitVec.ofNat_mul]
    rfl
  rw [g1, ok_bind, g2, ok_bind, State.update_eq _ _ r0.sane, ok_bind, State.update_eq _ _ r1.sane, ok_bind, r2.finalize, ok_bind, g3,
    ok_bind, r2.finalize, ok_bind, eqHash_self (asBytes_config r2.2.2.2.2 _), ok_bind, assertThat_true, ok_bind, hc, ok_bind, hm,
    assertThat_true]

example : testUpdateMany .s .SSE41 true 17 = .ok () := C63_test_update_many .SSE41 true 17 (by decide)

end Blake2
