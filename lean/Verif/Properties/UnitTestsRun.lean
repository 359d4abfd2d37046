import Verif.Properties.UnitTests
import Verif.Proofs.FastEval
import Verif.Proofs.KernelRfl
/-!
# The unit tests of the crates, with the values in /repo: C63

The expected outputs in /repo are compared with RFC 7693 by evaluation in the kernel. With the theorems of `UnitTests.lean` this
shows that the tests pass in the model on every machine, so that model and specification agree with the values the authors of the
code recorded.
-/
namespace Blake2
open Spec

theorem empty_right (a : Alg) : EMPTY_HASH a = hexOf (Spec.hash a (Config.default a) []) := by
  rw [Fast.hash_eq]
  cases a <;> exact toList_of (by kernel_rfl)

theorem abc_right (a : Alg) : ABC_HASH a = hexOf (Spec.hash a (Config.default a) (ascii "abc")) := by
  rw [Fast.hash_eq]
  cases a <;> exact toList_of (by kernel_rfl)

theorem oneBlock_right (a : Alg) : ONE_BLOCK_HASH a = hexOf (Spec.hash a (Config.default a) (List.replicate a.bb 0)) := by
  rw [Fast.hash_eq]
  cases a <;> exact toList_of (by kernel_rfl)

theorem thousand_right (a : Alg) : THOUSAND_HASH a = hexOf (Spec.hash a (Config.default a) (List.replicate 1000 0)) := by
  rw [Fast.hash_eq]
  cases a <;> exact toList_of (by kernel_rfl)

theorem allParameters_right (a : Alg) : allParametersHash a = hexOf (Spec.hash a (configOf a (allParameters a)) (ascii "foo")) := by
  rw [Fast.hash_eq]
  cases a <;> exact toList_of (by kernel_rfl)

theorem allParametersTree_right (a : Alg) : allParametersTreeHash a =
    hexOf (Spec.hashP a (pconfigOf a allParametersTree).hashLength (pconfigOf a allParametersTree).key (ascii "foo")) := by
  rw [Fast.hashP_eq]
  cases a <;> exact toList_of (by kernel_rfl)

theorem testSetters_ok (a : Alg) (plat : Platform) : testSetters a plat = .ok () := by
  have y : ∀ c : Setter, c.InRange a → testSetter a plat c = .ok () := fun c h => (C63_setter_tests plat c (.hashLength 0)).1.1.2 h
  have n : ∀ c : Setter, ¬ c.InRange a → shouldPanic (testSetter a plat c) = .ok () :=
    fun c h => (C63_setter_tests plat c (.hashLength 0)).1.2.2 h
  have pn : ∀ d : PSetter, ¬ d.InRange a → shouldPanic (testPSetter a plat d) = .ok () :=
    fun d h => (C63_setter_tests plat (.hashLength 0) d).2.2.2 h
  unfold testSetters
  rw [n _ (by cases a <;> decide), ok_bind, n _ (by cases a <;> decide), ok_bind, n _ (by cases a <;> decide), ok_bind,
    n _ (by cases a <;> decide), ok_bind, n _ (by cases a <;> decide), ok_bind, y _ (by cases a <;> decide), ok_bind,
    n _ (by cases a <;> decide), ok_bind, pn _ (by cases a <;> decide), ok_bind, pn _ (by cases a <;> decide), ok_bind,
    pn _ (by cases a <;> decide), ok_bind]
  cases a with
  | b => rfl
  | s =>
    rw [if_pos rfl, y _ (by decide), ok_bind, n _ (by decide)]

/-- C63. The tests of test.rs, and `test_hash_many` and `test_update_many`, as they stand in /repo, pass on every machine and in every
build. -/
theorem C63_unit_tests (a : Alg) (e : Machine) (dbg : Bool) : unitTests a e dbg = .ok () := by
  have hm : (2 * maxDegreeOn a e.x86 - 1) * a.bb < 2 ^ 31 := by
    cases a <;> cases e.x86 <;> decide
  unfold unitTests
  rw [(C63_update_state (detect e) dbg (ioTable a) (by
      intro q hq
      simp only [ioTable, List.mem_cons, List.not_mem_nil, or_false] at hq
      rcases hq with rfl | rfl | rfl | rfl
      · exact Nat.two_pow_pos 64
      · show 3 < 2 ^ 64; decide
      · rw [List.length_replicate]; cases a <;> decide
      · rw [List.length_replicate]; decide)).1 (by
      intro q hq
      simp only [ioTable, List.mem_cons, List.not_mem_nil, or_false] at hq
      rcases hq with rfl | rfl | rfl | rfl
      · exact empty_right a
      · exact abc_right a
      · exact oneBlock_right a
      · exact thousand_right a), ok_bind,
    (C63_multiple_finalizes (detect e) _ _ _).1 ⟨empty_right a, abc_right a⟩, ok_bind]
  have hw : (if e.std = true then testWrite a (detect e) (List.replicate 1000 0) (THOUSAND_HASH a) else .ok ()) = .ok () := by
    split
    · exact (C63_write (detect e) _ _).1 (thousand_right a)
    · rfl
  rw [hw, ok_bind, (C63_all_parameters (detect e) _ _ _).1 ⟨by cases a <;> decide, allParameters_right a⟩, ok_bind,
    (C63_all_parameters_tree (detect e) _ _ _).1 ⟨by cases a <;> decide, allParametersTree_right a⟩, ok_bind,
    testSetters_ok, ok_bind, C63_hash_from, ok_bind, C63_test_hash_many _ _ _ hm, ok_bind, C63_test_update_many _ _ _ hm]

/-- Tests with wrong values fail: the hash of `abc` expected of other bytes. -/
example (plat : Platform) (dbg : Bool) : testUpdateState .b plat dbg [([], EMPTY_HASH .b), (ascii "abd", ABC_HASH .b)] = .error .panic :=
  (C63_update_state plat dbg _ (by decide)).2 fun h => absurd (h (ascii "abd", ABC_HASH .b) (by simp)) (by decide +kernel)

end Blake2
