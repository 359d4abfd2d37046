import Verif.Proofs.KatS
import Verif.Proofs.KatB
import Verif.Proofs.KatSp
import Verif.Proofs.KatBp
import Verif.Proofs.KatXs
import Verif.Proofs.KatXb
/-!
# The vectors in the repository are right, and the tests pass: C57
-/
namespace Blake2.Kat
open Spec

theorem s_length : s.length = 256 := by rw [s_eq, fastOuts_length]
theorem sKeyed_length : sKeyed.length = 256 := by rw [sKeyed_eq, fastOuts_length]
theorem b_length : b.length = 256 := by rw [b_eq, fastOuts_length]
theorem bKeyed_length : bKeyed.length = 256 := by rw [bKeyed_eq, fastOuts_length]
theorem sp_length : sp.length = 256 := by rw [sp_eq, fastOuts_length]
theorem spKeyed_length : spKeyed.length = 256 := by rw [spKeyed_eq, fastOuts_length]
theorem bp_length : bp.length = 256 := by rw [bp_eq, fastOuts_length]
theorem bpKeyed_length : bpKeyed.length = 256 := by rw [bpKeyed_eq, fastOuts_length]
theorem xs_length : xs.length = 256 := by rw [xs_eq, fastOuts_length]
theorem xsKeyed_length : xsKeyed.length = 256 := by rw [xsKeyed_eq, fastOuts_length]
theorem xb_length : xb.length = 256 := by rw [xb_eq, fastOuts_length]
theorem xbKeyed_length : xbKeyed.length = 256 := by rw [xbKeyed_eq, fastOuts_length]

theorem group_length (x : Suite) (k : Nat) (outs : List String) : (group x k outs).length = outs.length := by
  rw [group, List.length_map, List.length_zipIdx]

theorem group_hash {x : Suite} {k : Nat} {outs : List String} : ∀ c ∈ group x k outs, c.hash = x.name := by
  intro c hc
  rw [group, List.mem_map] at hc
  obtain ⟨_, _, rfl⟩ := hc
  rfl

theorem name_inj : ∀ x y : Suite, x.name = y.name → x = y := by
  intro x y
  rcases x with (_ | _) | (_ | _) | (_ | _) <;> rcases y with (_ | _) | (_ | _) | (_ | _) <;> first | (intro _; rfl) | (intro h; exact absurd h (by decide))

theorem group_filter (x y : Suite) (k : Nat) (outs : List String) :
    ((group x k outs).filter fun c => c.hash = y.name) = if x.name = y.name then group x k outs else [] := by
  split
  · next h => exact List.filter_eq_self.2 fun c hc => by simp [group_hash c hc, h]
  · next h => exact List.filter_eq_nil_iff.2 fun c hc => by simp [group_hash c hc, h]

/-- C57, the vectors in the repository. All 3072 vectors of tests/blake2-kat.json are right: their outputs are those of the specifications of
BLAKE2b, BLAKE2s, BLAKE2bp, BLAKE2sp, BLAKE2Xb and BLAKE2Xs. -/
theorem C57_kat_right : testCases.length = 3072 ∧ ∀ c ∈ testCases, ∃ x : Suite, c.hash = x.name ∧ c.Right x := by
  constructor
  · simp only [testCases, List.length_append, group_length, s_length, sKeyed_length, b_length, bKeyed_length, sp_length, spKeyed_length,
      bp_length, bpKeyed_length, xs_length, xsKeyed_length, xb_length, xbKeyed_length]
  · intro c hc
    simp only [testCases, List.mem_append, or_assoc] at hc
    rcases hc with h | h | h | h | h | h | h | h | h | h | h | h
    · exact ⟨_, group_hash c h, group_right _ _ _ (by decide) s_eq c h⟩
    · exact ⟨_, group_hash c h, group_right _ _ _ (by decide) sKeyed_eq c h⟩
    · exact ⟨_, group_hash c h, group_right _ _ _ (by decide) b_eq c h⟩
    · exact ⟨_, group_hash c h, group_right _ _ _ (by decide) bKeyed_eq c h⟩
    · exact ⟨_, group_hash c h, group_right _ _ _ (by decide) sp_eq c h⟩
    · exact ⟨_, group_hash c h, group_right _ _ _ (by decide) spKeyed_eq c h⟩
    · exact ⟨_, group_hash c h, group_right _ _ _ (by decide) bp_eq c h⟩
    · exact ⟨_, group_hash c h, group_right _ _ _ (by decide) bpKeyed_eq c h⟩
    · exact ⟨_, group_hash c h, group_right _ _ _ (by decide) xs_eq c h⟩
    · exact ⟨_, group_hash c h, group_right _ _ _ (by decide) xsKeyed_eq c h⟩
    · exact ⟨_, group_hash c h, group_right _ _ _ (by decide) xb_eq c h⟩
    · exact ⟨_, group_hash c h, group_right _ _ _ (by decide) xbKeyed_eq c h⟩

/-- The vectors are short. -/
theorem testCases_short : ∀ c ∈ testCases, c.input.length < 2 ^ 64 ∧ c.out.length < 2 ^ 33 := by
  intro c hc
  obtain ⟨x, _, key, input, out, _, _, _, h4, h5⟩ := C57_kat_right.2 c hc
  constructor
  · have : ∃ n, n ≤ 3072 ∧ c.input = hexOf (counting n) := by
      have h : ∀ y k outs, outs.length = 256 → c ∈ group y k outs → ∃ n, n ≤ 3072 ∧ c.input = hexOf (counting n) := by
        intro y k outs hl h
        rw [group, List.mem_map] at h
        obtain ⟨⟨o, i⟩, hm, rfl⟩ := h
        have hi := (List.getElem?_eq_some_iff.1 (List.mem_zipIdx_iff_getElem?.1 hm)).1
        refine ⟨_, ?_, rfl⟩
        cases y <;> simp only [inputLength] <;> omega
      simp only [testCases, List.mem_append, or_assoc] at hc
      rcases hc with g | g | g | g | g | g | g | g | g | g | g | g
      · exact h _ _ _ s_length g
      · exact h _ _ _ sKeyed_length g
      · exact h _ _ _ b_length g
      · exact h _ _ _ bKeyed_length g
      · exact h _ _ _ sp_length g
      · exact h _ _ _ spKeyed_length g
      · exact h _ _ _ bp_length g
      · exact h _ _ _ bpKeyed_length g
      · exact h _ _ _ xs_length g
      · exact h _ _ _ xsKeyed_length g
      · exact h _ _ _ xb_length g
      · exact h _ _ _ xbKeyed_length g
    obtain ⟨n, hn, e⟩ := this
    rw [e, hexOf_length, counting_length]
    omega
  · rw [h5, hexOf_length]
    cases x with
    | serial a =>
      cases h4
      have := List.length_take_le (Config.default a).digestLength (Spec.hashFull a { Config.default a with key := key } input)
      have h' : (Config.default a).digestLength ≤ 64 := by cases a <;> decide
      have : (Spec.hash a { Config.default a with key := key } input).length ≤ (Config.default a).digestLength := this
      omega
    | tree a =>
      cases h4
      have : (Spec.hashP a (maxOut a) key input).length ≤ maxOut a := List.length_take_le _ _
      have h' : maxOut a ≤ 64 := by cases a <;> decide
      omega
    | xof a =>
      unfold Suite.output at h4
      simp only at h4
      split at h4
      · next h =>
        cases h4
        rw [xof_length]
        have : xofRange a ≤ 2 ^ 32 := by cases a <;> decide
        omega
      · cases h4

/-- C57, the tests in the repository. With the file tests/blake2-kat.json each of the six tests passes, on every platform and in every build. -/
theorem C57_kat (plat : Platform) (dbg : Bool) (suite : Suite) : vectorTest plat dbg suite testCases = .ok () := by
  refine (C57_vectors plat dbg suite testCases testCases_short).1 ⟨?_, ?_⟩
  · intro c hc hn
    obtain ⟨x, hx, hr⟩ := C57_kat_right.2 c hc
    rw [← name_inj _ _ (hx.symm.trans hn)]
    exact hr
  · have e : ∀ (p : Prop) [Decidable p] (l : List TestCase), (if p then l else []).length = if p then l.length else 0 := by
      intro p _ l; split <;> rfl
    simp only [testCases, List.filter_append, group_filter, List.length_append, e, group_length, s_length, sKeyed_length, b_length, bKeyed_length,
      sp_length, spKeyed_length, bp_length, bpKeyed_length, xs_length, xsKeyed_length, xb_length, xbKeyed_length]
    rcases suite with (_ | _) | (_ | _) | (_ | _) <;> decide

end Blake2.Kat
