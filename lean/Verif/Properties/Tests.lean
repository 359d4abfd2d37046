import Verif.Model.Tests
import Verif.Properties.Batch
import Verif.Properties.Reference
import Verif.Properties.Output
/-!
# The fuzz targets and the randomised tests pass on every input: C54
-/
namespace Blake2
open Spec

variable {a : Alg}

theorem forM_ok {α : Type} (f : α → Res Unit) (l : List α) (h : ∀ x ∈ l, f x = .ok ()) : l.forM f = .ok () := by
  induction l with
  | nil => rfl
  | cons x l ih =>
    show (f x >>= fun _ => l.forM f) = _
    rw [h x (by simp)]
    exact ih fun y hy => h y (by simp [hy])

theorem ok_bind {α β : Type} (x : α) (f : α → Res β) : ((.ok x : Res α) >>= f) = f x := rfl

theorem eqHash_self {h : Hash a} {d : List Byte} (e : h.asBytes = .ok d) : h.eqHash h = .ok true := by
  unfold Hash.eqHash
  simp only [e, bind, Except.bind, constantTimeEq_eq, decide_true]

theorem assertThat_true : assertThat true = .ok () := rfl

/-- C54, fuzz targets. They never panic, on any data. -/
theorem C54_fuzz_targets (plat : Platform) :
    (∀ data, fuzzOneShot a plat data = .ok ()) ∧ (∀ data, fuzzTree a plat data = .ok ()) ∧
    (∀ hashLength key personal updates, fuzzUpdates a plat hashLength key personal updates = .ok ()) := by
  refine ⟨fun data => ?_, fun data => ?_, fun n key personal updates => ?_⟩
  · unfold fuzzOneShot blake2
    rw [hash_eq (rep_new a plat) data]
    rfl
  · unfold fuzzTree blake2p
    rw [PParams.hash_eq (prep_new a plat) data]
    rfl
  · unfold fuzzUpdates
    split
    · rfl
    split
    · rfl
    split
    · rfl
    next h1 h2 h3 =>
      obtain ⟨p, e⟩ := C03_nonvacuous (a := a) plat [.hashLength n, .key key, .personal personal] (by
        intro x hx
        simp only [List.mem_cons, List.not_mem_nil, or_false] at hx
        have e1 : a.personalbytes = saltBytes a := by cases a <;> rfl
        have e2 : a.keybytes = maxOut a := by cases a <;> rfl
        have e3 : a.outbytes = maxOut a := by cases a <;> rfl
        rcases hx with rfl | rfl | rfl
        · show 1 ≤ n ∧ n ≤ maxOut a; omega
        · show key.length ≤ maxOut a; omega
        · show personal.length ≤ saltBytes a; omega)
      obtain ⟨s, es, r, _⟩ := upd_foldlM (HRel.create (built_rep e).1) updates
      rw [e, ok_bind, es, ok_bind, r.finalize]
      rfl

/-- C54, `fuzz_hash_many`. It passes for any parameters and inputs, any number of them, in debug and in release builds. -/
theorem C54_fuzz_hash_many (dbg : Bool) (params : List (Params a)) (inputs : List (List Byte)) (hl : params.length = inputs.length)
    (hp : ∀ p ∈ params, Built p) : fuzzHashMany dbg params inputs = .ok () := by
  have hb : ∀ q ∈ params.zip inputs, Built q.1 := fun q hq => hp _ (List.of_mem_zip hq).1
  obtain ⟨jobs, out, e1, e2, hlen, e3⟩ := C10_hash_many (params.zip inputs) hb
  have hz : (inputs.zip params).mapM (fun q => HashManyJob.new q.2 q.1) =
      (params.zip inputs).mapM (fun q => HashManyJob.new q.1 q.2) := by
    clear hb e1 e2 hlen e3 hl hp
    induction params generalizing inputs with
    | nil => cases inputs <;> rfl
    | cons p ps ih =>
      cases inputs with
      | nil => rfl
      | cons x xs => rw [List.zip_cons_cons, List.zip_cons_cons, List.mapM_cons, List.mapM_cons, ih]
  let g : Params a × List Byte → Hash a := fun q => match q.1.hash q.2 with | .ok h => h | .error _ => { bytes := [], len := 0 }
  have hg : ∀ q ∈ params.zip inputs, q.1.hash q.2 = .ok (g q) := by
    intro q hq
    obtain ⟨c, r⟩ := (hb q hq).rep
    show _ = Except.ok (match q.1.hash q.2 with | .ok h => h | .error _ => { bytes := [], len := 0 })
    rw [hash_eq r q.2]
  unfold fuzzHashMany fuzzHashManyOf
  rw [list_mapM_ok _ g _ hg, ok_bind, hz, e1, ok_bind, e2, ok_bind]
  apply forM_ok
  intro i hi
  rw [List.mem_range, hlen] at hi
  obtain ⟨j, h, h1, h2, h3⟩ := e3 i (params.zip inputs)[i].1 (params.zip inputs)[i].2 (List.getElem?_eq_getElem hi)
  have h4 : g (params.zip inputs)[i] = h := by
    have := hg _ (List.getElem_mem hi)
    rw [h2] at this
    cases this
    rfl
  obtain ⟨c, r⟩ := (hb _ (List.getElem_mem hi)).rep
  have h5 : h.asBytes = .ok (Spec.hash a c (params.zip inputs)[i].2) := by
    rw [hash_eq r] at h2
    cases h2
    exact asBytes_full r _
  have h6 : getState ((params.zip inputs).map g) i = .ok h := by
    unfold getState
    rw [List.getElem?_map, List.getElem?_eq_getElem hi, Option.map_some, h4]
  have h7 : getState out i = .ok j := by
    unfold getState
    rw [h1]
  rw [h6, ok_bind, h7, ok_bind, h3, ok_bind, eqHash_self h5, ok_bind]
  rfl

/-- C54, `fuzz_update_many`. It passes for any parameters and inputs, any number of them, in debug and in release builds. The
hypothesis on the lengths says that the assertion on `count` makes sense: that twice the length, and the key block, fit the counter
type. Rust slices are always shorter than that for BLAKE2b. -/
theorem C54_fuzz_update_many (dbg : Bool) (params : List (Params a)) (inputs : List (List Byte))
    (hl : params.length = inputs.length) (hp : ∀ p ∈ params, Built p) (hx : ∀ x ∈ inputs, 2 * x.length + bb a < 2 ^ (2 * a.w)) :
    fuzzUpdateMany dbg params inputs = .ok () := by
  have hb : ∀ q ∈ params.zip inputs, Built q.1 := fun q hq => hp _ (List.of_mem_zip hq).1
  let t : Params a × List Byte → State a := fun q => State.upd (State.upd q.1.toState q.2) q.2
  let g : Params a × List Byte → Hash a := fun q => match (t q).finalize with | .ok h => h | .error _ => { bytes := [], len := 0 }
  have ht : ∀ q ∈ params.zip inputs, ∃ c, Rep a c q.1 ∧ HRel a { config := c, msg := q.2 ++ q.2 } (t q) ∧
      q.1.toState.Sane ∧ (State.upd q.1.toState q.2).Sane ∧ (t q).finalize = .ok (g q) ∧
      (g q).asBytes = .ok (Spec.hash a c (q.2 ++ q.2)) := by
    intro q hq
    obtain ⟨c, r⟩ := (hb q hq).rep
    have r1 := HRel.create r
    have r2 := r1.feed q.2
    have r3 := r2.feed q.2
    have e : (t q).finalize = _ := r3.finalize
    refine ⟨c, r, ?_, r1.sane, r2.sane, ?_, ?_⟩
    · exact r3
    · show _ = Except.ok (match (t q).finalize with | .ok h => h | .error _ => { bytes := [], len := 0 })
      rw [e]
    · show (match (t q).finalize with | .ok h => h | .error _ => { bytes := [], len := 0 } : Hash a).asBytes = _
      rw [e]
      exact asBytes_config r3.2.2.2.2 (q.2 ++ q.2)
  have h1 : (params.zip inputs).mapM (fun q => do
      let state := q.1.toState
      let state ← state.update q.2
      let state ← state.update q.2
      state.finalize) = .ok ((params.zip inputs).map g) := by
    apply list_mapM_ok
    intro q hq
    obtain ⟨c, _, _, s1, s2, e, _⟩ := ht q hq
    simp only [State.update_eq _ _ s1, bind, Except.bind, State.update_eq _ _ s2]
    exact e
  have z1 : (params.map Params.toState).zip inputs = (params.zip inputs).map fun q => (q.1.toState, q.2) := by
    rw [List.zip_map_left]; rfl
  have z2 : ((params.zip inputs).map fun q => State.upd q.1.toState q.2).zip inputs =
      (params.zip inputs).map fun q => (State.upd q.1.toState q.2, q.2) := by
    apply List.ext_getElem
    · simp [hl]
    · intro i _ _; simp
  have h2 : updateMany ((params.map Params.toState).zip inputs) =
      .ok ((params.zip inputs).map fun q => State.upd q.1.toState q.2) := by
    rw [z1, updateMany_eq, List.map_map]
    · rfl
    · intro q hq
      obtain ⟨q, hq', rfl⟩ := List.mem_map.1 hq
      obtain ⟨_, _, _, s1, _⟩ := ht q hq'
      exact s1
  have h3 : updateMany (((params.zip inputs).map fun q => State.upd q.1.toState q.2).zip inputs) = .ok ((params.zip inputs).map t) := by
    rw [z2, updateMany_eq, List.map_map]
    · rfl
    · intro q hq
      obtain ⟨q, hq', rfl⟩ := List.mem_map.1 hq
      obtain ⟨_, _, _, _, s2, _⟩ := ht q hq'
      exact s2
  unfold fuzzUpdateMany fuzzUpdateManyOf
  rw [h1, ok_bind]
  simp only
  rw [h2, ok_bind, h3, ok_bind]
  apply forM_ok
  intro i hi
  rw [List.mem_range, List.length_map] at hi
  have hi' : i < inputs.length := by rw [List.length_zip, hl, Nat.min_self] at hi; exact hi
  obtain ⟨c, r, hr, _, _, e, ed⟩ := ht _ (List.getElem_mem hi)
  have hz : (params.zip inputs)[i].2 = inputs[i] := by simp
  have g1 : getState inputs i = .ok inputs[i] := by simp [getState, hi']
  have g2 : getState ((params.zip inputs).map t) i = .ok (t (params.zip inputs)[i]) := by
    unfold getState
    rw [List.getElem?_map, List.getElem?_eq_getElem hi, Option.map_some]
  have g3 : getState ((params.zip inputs).map g) i = .ok (g (params.zip inputs)[i]) := by
    unfold getState
    rw [List.getElem?_map, List.getElem?_eq_getElem hi, Option.map_some]
  have hc := hr.count dbg (by
    intro _ hu
    have := hx _ (List.getElem_mem hi')
    have h2 := hu.2
    simp only [hz, List.length_append] at h2
    rw [Nat.mod_eq_of_lt (by omega)] at h2
    omega)
  have hm : (2 * BitVec.ofNat (2 * a.w) inputs[i].length == BitVec.ofNat (2 * a.w) ((params.zip inputs)[i].2 ++ (params.zip inputs)[i].2).length)
      = true := by
    rw [beq_iff_eq, List.length_append, hz, ← Nat.two_mul, BitVec.ofNat_mul]
    rfl
  rw [g1, ok_bind, g2, ok_bind, hc, ok_bind, hm, assertThat_true, ok_bind, g3, ok_bind, e, ok_bind, eqHash_self ed, ok_bind]
  rfl

/-- C54, `test_against_reference`. It passes for every input, with and without the portable implementation, in debug and in release
builds. -/
theorem C54_against_reference (plat : Platform) (dbg portable : Bool) (input : List Byte) :
    testAgainstReference a plat dbg portable input = .ok () := by
  obtain ⟨h, e1, e2⟩ := C52_reference (a := a) plat plat input
  have hh : h = { bytes := treeFull a (maxOut a) [] input, len := BitVec.ofNat 8 (maxOut a) } := by
    unfold blake2p at e2
    rw [PParams.hash_eq (prep_new a plat) input, (prep_new a plat).hashLength] at e2
    cases e2
    rfl
  have hs := eqHash_self (h := h) (by rw [hh]; exact asBytes_pconfig (Nat.le_refl _) input)
  have hp : PRep a (maxOut a) [] (if portable = true then (PParams.new a plat).forcePortable else PParams.new a plat) := by
    cases portable
    · exact prep_new a plat
    · exact prep_new a .Portable
  obtain ⟨s, es, r⟩ := PHRel.create (c := { hashLength := maxOut a, key := [] }) hp
  obtain ⟨s1, es1, r1, _⟩ := r.update input
  have f1 : s1.finalize = .ok h := by rw [r1.finalize, hh]; rfl
  obtain ⟨s2, es2, r2, _⟩ := r.update (input.take (min 1 input.length))
  obtain ⟨s3, es3, r3, _⟩ := r2.update (input.drop (min 1 input.length))
  have f3 : s3.finalize = .ok h := by
    rw [r3.finalize, hh]
    simp [PHasher.feed, List.take_append_drop]
  have c2 := r2.count dbg (fun _ hu => hu.1 rfl)
  have c3 := r3.count dbg (fun _ hu => hu.1 rfl)
  have l2 : (BitVec.ofNat (2 * a.w) (min 1 input.length) == BitVec.ofNat (2 * a.w)
      (PHasher.feed (input.take (min 1 input.length)) { config := { hashLength := maxOut a, key := [] }, msg := [] }).msg.length) = true := by
    rw [beq_iff_eq]
    simp only [PHasher.feed, List.nil_append, List.length_take]
    congr 1
    omega
  have l3 : (BitVec.ofNat (2 * a.w) input.length == BitVec.ofNat (2 * a.w)
      (PHasher.feed (input.drop (min 1 input.length)) (PHasher.feed (input.take (min 1 input.length))
        { config := { hashLength := maxOut a, key := [] }, msg := [] })).msg.length) = true := by
    rw [beq_iff_eq]
    simp only [PHasher.feed, List.nil_append, List.take_append_drop]
  have t1 : sliceTo input (min 1 input.length) = .ok (input.take (min 1 input.length)) := by
    rw [sliceTo, if_pos (by omega)]
  have t2 : sliceFrom input (min 1 input.length) = .ok (input.drop (min 1 input.length)) := by
    rw [sliceFrom, if_pos (by omega)]
  unfold testAgainstReference testAgainstReferenceOf treeApi
  simp only
  rw [e1, ok_bind, es, ok_bind, es1, ok_bind, f1, ok_bind, hs, ok_bind, assertThat_true, ok_bind, ok_bind, t1, ok_bind, es2, ok_bind,
    c2, ok_bind, l2, assertThat_true, ok_bind, r2.finalize, ok_bind, t2, ok_bind, es3, ok_bind, c3, ok_bind, l3, assertThat_true,
    ok_bind, f3, ok_bind, hs, ok_bind, assertThat_true, ok_bind, e2, ok_bind, hs, ok_bind, assertThat_true]

/-- More inputs than lanes, of unequal lengths, with different parameters. -/
example : ∃ p : Params .b, (Params.new .b .AVX2).build [.key [1, 2], .hashLength 20] = .ok p ∧
    fuzzUpdateMany true [p, Params.new .b .SSE41, p, p, p, p, p] ((List.range 7).map fun i => List.replicate (100 * i) 3) = .ok () ∧
    fuzzHashMany true [p, Params.new .b .SSE41, p, p, p, p, p] ((List.range 7).map fun i => List.replicate (100 * i) 3) = .ok () := by
  obtain ⟨p, e⟩ := C03_nonvacuous (a := .b) .AVX2 [.key [1, 2], .hashLength 20] (by decide)
  have hp : ∀ q ∈ [p, Params.new .b .SSE41, p, p, p, p, p], Built q := by
    intro q hq
    simp only [List.mem_cons, List.not_mem_nil, or_false] at hq
    rcases hq with rfl | rfl | rfl | rfl | rfl | rfl | rfl
    · exact ⟨_, _, e⟩
    · exact ⟨_, [], rfl⟩
    all_goals exact ⟨_, _, e⟩
  refine ⟨p, e, C54_fuzz_update_many true _ _ (by simp) hp ?_, C54_fuzz_hash_many true _ _ (by simp) hp⟩
  intro x hx
  obtain ⟨i, hi, rfl⟩ := List.mem_map.1 hx
  rw [List.mem_range] at hi
  rw [List.length_replicate]
  show 2 * (100 * i) + 128 < 2 ^ 128
  omega

end Blake2
