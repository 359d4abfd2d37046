import Verif.Model.Reference
import Verif.Properties.Tree
/-!
# The tree hash from the sequential API: C52
-/
namespace Blake2
open Spec

variable {a : Alg}

theorem leaf_calls (plat : Platform) {i : Nat} (hi : i < parDegree a) : ∃ p,
    (Params.new a plat).build [.fanout (BitVec.ofNat 8 (parDegree a)), .maxDepth 2, .nodeOffset (BitVec.ofNat 64 i),
      .innerHashLength a.outbytes] = .ok p ∧ Rep a { leafConfig a (maxOut a) [] i with lastNode := false } p := by
  have h8 : parDegree a ≤ 8 := by cases a <;> decide
  have hi64 : (BitVec.ofNat 64 i).toNat = i := by rw [BitVec.toNat_ofNat]; exact Nat.mod_eq_of_lt (by omega)
  obtain ⟨p, e, r, _⟩ := rep_build (rep_new a plat) [.fanout (BitVec.ofNat 8 (parDegree a)), .maxDepth 2,
    .nodeOffset (BitVec.ofNat 64 i), .innerHashLength a.outbytes] (by
      intro x hx
      simp only [List.mem_cons, List.not_mem_nil, or_false] at hx
      rcases hx with rfl | rfl | rfl | rfl
      · trivial
      · trivial
      · show (BitVec.ofNat 64 i).toNat < _
        rw [hi64]
        cases a <;> exact Nat.lt_of_lt_of_le (Nat.lt_of_lt_of_le hi h8) (by decide)
      · cases a <;> decide)
  refine ⟨p, e, ?_⟩
  have : { leafConfig a (maxOut a) [] i with lastNode := false } = [Setter.fanout (BitVec.ofNat 8 (parDegree a)), .maxDepth 2,
    .nodeOffset (BitVec.ofNat 64 i), .innerHashLength a.outbytes].foldl Setter.apply (Config.default a) := by
    simp only [List.foldl_cons, List.foldl_nil, Setter.apply, hi64]
    cases a <;> rfl
  rw [this]
  exact r

theorem root_calls (plat : Platform) : ∃ p,
    (Params.new a plat).build [.fanout (BitVec.ofNat 8 (parDegree a)), .maxDepth 2, .nodeDepth 1,
      .innerHashLength a.outbytes, .lastNode true] = .ok p ∧ Rep a (rootConfig a (maxOut a) []) p := by
  obtain ⟨p, e, r, _⟩ := rep_build (rep_new a plat) [.fanout (BitVec.ofNat 8 (parDegree a)), .maxDepth 2, .nodeDepth 1,
      .innerHashLength a.outbytes, .lastNode true] (by cases a <;> decide)
  refine ⟨p, e, ?_⟩
  have : rootConfig a (maxOut a) [] = [Setter.fanout (BitVec.ofNat 8 (parDegree a)), .maxDepth 2, .nodeDepth 1,
      .innerHashLength a.outbytes, .lastNode true].foldl Setter.apply (Config.default a) := by
    cases a <;> rfl
  rw [this]
  exact r

/-- The leaves, for the first `n` of them. -/
theorem leaves_rel (plat : Platform) (n : Nat) (hn : n ≤ parDegree a) : ∃ ss, (List.range n).mapM (fun i => do
      let p ← (Params.new a plat).build
        [.fanout (BitVec.ofNat 8 (parDegree a)), .maxDepth 2, .nodeOffset (BitVec.ofNat 64 i), .innerHashLength a.outbytes]
      (.ok p.toState : Res (State a))) = .ok ss ∧
    Rel (HRel a) ((List.range n).map fun i => { config := { leafConfig a (maxOut a) [] i with lastNode := false }, msg := [] }) ss := by
  induction n with
  | zero => exact ⟨[], rfl, rel_nil⟩
  | succ n ih =>
    obtain ⟨ss, e, r⟩ := ih (by omega)
    obtain ⟨p, e', r'⟩ := leaf_calls (a := a) plat (i := n) (by omega)
    refine ⟨ss ++ [p.toState], ?_, ?_⟩
    · rw [List.range_succ, List.mapM_append, e]
      simp only [List.mapM_cons, List.mapM_nil, e', bind, Except.bind]
      rfl
    · rw [List.range_succ, List.map_append]
      exact r.append (HRel.create r')

/-- Setting the flag of the last one. -/
theorem setLast_leaves : ((List.range (parDegree a)).map fun i =>
      ({ config := { leafConfig a (maxOut a) [] i with lastNode := false }, msg := [] } : Hasher)).modify (parDegree a - 1)
        (Hasher.setLast true) =
    (List.range (parDegree a)).map fun i => { config := leafConfig a (maxOut a) [] i, msg := [] } := by
  cases a <;> rfl

/-- The bytes leaf `i` has been fed after the chunks numbered below `m`. -/
def fedTo (a : Alg) (input : List Byte) (m i : Nat) : List Byte :=
  (((List.range m).filter fun j => j % parDegree a = i).map fun j => (input.drop (j * a.bb)).take a.bb).flatten

theorem parDegree_pos' : 0 < parDegree a := by cases a <;> decide

theorem fedTo_succ (input : List Byte) (m i : Nat) : fedTo a input (m + 1) i =
    if m % parDegree a = i then fedTo a input m i ++ (input.drop (m * a.bb)).take a.bb else fedTo a input m i := by
  unfold fedTo
  rw [List.range_succ, List.filter_append]
  by_cases h : m % parDegree a = i <;> simp [h]

theorem feed_rel (input : List Byte) : ∀ (n m : Nat) (ss : List (State a)),
    Rel (HRel a) ((List.range (parDegree a)).map fun i => { config := leafConfig a (maxOut a) [] i, msg := fedTo a input m i }) ss →
    ∃ ss', referenceFeed m ((List.range' m n).map fun j => (input.drop (j * a.bb)).take a.bb) ss = .ok ss' ∧
      Rel (HRel a) ((List.range (parDegree a)).map fun i =>
        { config := leafConfig a (maxOut a) [] i, msg := fedTo a input (m + n) i }) ss' := by
  intro n
  induction n with
  | zero => intro m ss r; exact ⟨ss, rfl, r⟩
  | succ n ih =>
    intro m ss r
    have hlt : m % parDegree a < parDegree a := Nat.mod_lt _ parDegree_pos'
    obtain ⟨s, e, _, hr⟩ := r.get (i := m % parDegree a) (by simpa using hlt)
    have hm := r.modify (i := m % parDegree a) (by simpa using hlt) _ (hr.feed ((input.drop (m * a.bb)).take a.bb))
    have heq : ((List.range (parDegree a)).map fun i =>
          ({ config := leafConfig a (maxOut a) [] i, msg := fedTo a input m i } : Hasher)).modify (m % parDegree a)
            (Hasher.feed ((input.drop (m * a.bb)).take a.bb)) =
        (List.range (parDegree a)).map fun i => { config := leafConfig a (maxOut a) [] i, msg := fedTo a input (m + 1) i } := by
      apply List.ext_getElem (by simp)
      intro i h1 h2
      rw [List.getElem_modify]
      simp only [List.getElem_map, List.getElem_range, fedTo_succ, Hasher.feed]
      split <;> rfl
    rw [heq] at hm
    obtain ⟨ss', e', r'⟩ := ih (m + 1) _ hm
    refine ⟨ss', ?_, by rw [show m + (n + 1) = m + 1 + n by omega]; exact r'⟩
    rw [List.range'_succ, List.map_cons, referenceFeed]
    simp only [e, bind, Except.bind, State.update_eq s _ hr.sane]
    exact e'

/-- The root takes in the digests of the leaves. -/
theorem root_feed : ∀ (hs : List Hasher) (ss : List (State a)) (h : Hasher) (s : State a), Rel (HRel a) hs ss → HRel a h s →
    ∃ s', ss.foldlM (fun root leaf => do
      let h ← leaf.finalize
      let d ← h.asBytes
      root.update d) s = .ok s' ∧ HRel a (h.feed (hs.flatMap fun k => Spec.hash a k.config k.msg)) s' := by
  intro hs
  induction hs with
  | nil =>
    intro ss h s r hr
    obtain rfl : ss = [] := List.length_eq_zero_iff.1 r.1
    refine ⟨s, rfl, ?_⟩
    rw [List.flatMap_nil, show h.feed [] = h by simp [Hasher.feed]]
    exact hr
  | cons k hs ih =>
    intro ss h s r hr
    cases ss with
    | nil => exact absurd r.1 (by simp)
    | cons t ss =>
      have hk : HRel a k t := r.2 0 (by simp) (by simp)
      have r' : Rel (HRel a) hs ss := ⟨by simpa using r.1, fun i h1 h2 => r.2 (i + 1) (by simpa using h1) (by simpa using h2)⟩
      obtain ⟨s', e, hs'⟩ := ih ss _ _ r' (hr.feed (Spec.hash a k.config k.msg))
      refine ⟨s', ?_, ?_⟩
      · rw [List.foldlM_cons, hk.finalize]
        simp only [bind, Except.bind, asBytes_config hk.2.2.2.2, State.update_eq s _ hr.sane]
        exact e
      · rw [List.flatMap_cons, show h.feed (Spec.hash a k.config k.msg ++ hs.flatMap fun k => Spec.hash a k.config k.msg) =
          (h.feed (Spec.hash a k.config k.msg)).feed (hs.flatMap fun k => Spec.hash a k.config k.msg) by
            simp [Hasher.feed]]
        exact hs'

theorem hash_full_length {c : Config} (h : c.digestLength = maxOut a) (msg : List Byte) : Spec.hash a c msg = hashFull a c msg := by
  unfold Spec.hash
  rw [h, List.take_of_length_le]
  rw [hashFull, wordsToBytes_length, maxOut_eq]
  exact Nat.le_refl _

/-- C52. The tree hash put together by hand from the sequential API is the tree hash: for every input, and whatever platforms
the two are run on, the reference implementation in the tests of the crate returns the same `Hash` as `blake2bp` (`blake2sp`). -/
theorem C52_reference (plat plat' : Platform) (input : List Byte) :
    ∃ h, referenceP a plat input = .ok h ∧ blake2p a plat' input = .ok h := by
  obtain ⟨ss, e1, r1⟩ := leaves_rel (a := a) plat (parDegree a) (Nat.le_refl _)
  have hlast : parDegree a - 1 < parDegree a := by have := parDegree_pos' (a := a); omega
  obtain ⟨s, e2, _, hr⟩ := r1.get (i := parDegree a - 1) (by simpa using hlast)
  have r2 := r1.modify (i := parDegree a - 1) (by simpa using hlast) _ (hr.setLast true)
  rw [setLast_leaves] at r2
  obtain ⟨ss', e3, r3⟩ := feed_rel input ((input.length + a.bb - 1) / a.bb) 0 _ r2
  rw [← List.range_eq_range'] at e3
  obtain ⟨p, e4, r4⟩ := root_calls (a := a) plat
  obtain ⟨s', e5, r5⟩ := root_feed _ _ _ _ r3 (HRel.create r4)
  have hprep := prep_new a plat'
  refine ⟨_, ?_, PParams.hash_eq hprep input⟩
  unfold referenceP referenceLeaves referenceRoot chunksOf
  have okb : ∀ {α β : Type} (x : α) (f : α → Res β), ((.ok x : Res α) >>= f) = f x := fun _ _ => rfl
  rw [e1, okb, e2, okb]
  show ((referenceFeed 0 _ _) >>= _) = _
  rw [e3, okb, e4, okb, okb, e5, okb, r5.finalize]
  have hflat : ((List.range (parDegree a)).map fun i =>
        ({ config := leafConfig a (maxOut a) [] i, msg := fedTo a input (0 + (input.length + a.bb - 1) / a.bb) i } : Hasher)).flatMap
          (fun k => Spec.hash a k.config k.msg) =
      (List.range (degree a)).flatMap fun i => hashFull a (leafConfig a (maxOut a) [] i) (leafMsg a input i) := by
    rw [List.flatMap_map, Nat.zero_add]
    have hd : degree a = parDegree a := by cases a <;> rfl
    have hbb : Spec.bb a = a.bb := by cases a <;> rfl
    rw [hd]
    congr 1
    funext i
    rw [hash_full_length rfl]
    congr 1
    unfold leafMsg fedTo
    rw [hd, hbb]
  rw [hflat]
  congr 2
  cases a <;> rfl

example : ∃ h, referenceP .b .SSE41 (List.replicate 5000 3) = .ok h ∧ blake2p .b .AVX2 (List.replicate 5000 3) = .ok h :=
  C52_reference _ _ _

end Blake2
