import Verif.Properties.UnitTests
import Verif.Properties.DocExamples
import Verif.Properties.GutsTests
/-!
# The tests that compare the library with itself notice every wrong answer: C69

Each test is run with an arbitrary function in the place of the one it is about.
-/
namespace Blake2
open Spec

variable {a : Alg}

theorem bind_ok_iff {α β : Type} {x : Res α} {f : α → Res β} {b : β} : (x >>= f) = .ok b ↔ ∃ y, x = .ok y ∧ f y = .ok b := by
  cases x with
  | error e => exact ⟨fun h => (by cases h), fun ⟨_, h, _⟩ => (by cases h)⟩
  | ok y => exact ⟨fun h => ⟨y, rfl, h⟩, fun ⟨_, h, h'⟩ => (by cases h; exact h')⟩

theorem forM_ok_iff {α : Type} (l : List α) (f : α → Res Unit) : l.forM f = .ok () ↔ ∀ x ∈ l, f x = .ok () := by
  induction l with
  | nil => exact ⟨fun _ _ h => by simp at h, fun _ => rfl⟩
  | cons x xs ih =>
    show (f x >>= fun _ => xs.forM f) = .ok () ↔ _
    rw [bind_ok_iff]
    constructor
    · rintro ⟨_, h1, h2⟩ y hy
      rcases List.mem_cons.1 hy with rfl | hy
      · exact h1
      · exact ih.1 h2 y hy
    · intro h
      exact ⟨(), h x (by simp), ih.2 fun y hy => h y (by simp [hy])⟩

theorem assertThat_ok_iff (b : Bool) : assertThat b = .ok () ↔ b = true := by
  cases b
  · exact ⟨fun h => (by cases h), fun h => (by cases h)⟩
  · exact ⟨fun _ => rfl, fun _ => rfl⟩

theorem getState_ok_iff {α : Type} (l : List α) (i : Nat) (x : α) : getState l i = .ok x ↔ l[i]? = some x := by
  unfold getState
  cases l[i]? with
  | none => exact ⟨fun h => (by cases h), fun h => (by cases h)⟩
  | some y => exact ⟨fun h => (by cases h; rfl), fun h => (by cases h; rfl)⟩

/-- Comparing hashes, and asserting that they are equal. -/
theorem assert_eqHash_iff (e h : Hash a) {d : List Byte} (he : e.asBytes = .ok d) :
    (e.eqHash h >>= assertThat) = .ok () ↔ h.asBytes = .ok d := by
  unfold Hash.eqHash
  rw [he, ok_bind]
  cases hh : h.asBytes with
  | error f => exact ⟨fun h => (by cases h), fun h => (by cases h)⟩
  | ok d' =>
    rw [ok_bind, constantTimeEq_eq, ok_bind, assertThat_ok_iff, decide_eq_true_iff]
    exact ⟨fun h => by rw [h], fun h => by cases h; rfl⟩

/-- `d` is what `Params::hash` gives for the parameters and the input. -/
def IsDigest (p : Params a) (x d : List Byte) : Prop := ∃ e, p.hash x = .ok e ∧ e.asBytes = .ok d

/-- What should come of giving jobs with these parameters and inputs to `hash_many`: it returns, and every job has the digest of its
parameters and input. -/
def HashManyRight (hm : List (HashManyJob a) → Res (List (HashManyJob a))) (dbg : Bool) (ps : List (Params a)) (xs : List (List Byte)) : Prop :=
  ∃ jobs out, (ps.zip xs).mapM (fun q => HashManyJob.new q.1 q.2) = .ok jobs ∧ hm jobs = .ok out ∧
    ∀ (i : Nat) p x, ps[i]? = some p → xs[i]? = some x →
      ∃ (j : HashManyJob a) (h : Hash a) (d : List Byte), out[i]? = some j ∧ j.toHash dbg = .ok h ∧ h.asBytes = .ok d ∧ IsDigest p x d

/-- What should come of giving states with these parameters and inputs to `update_many` twice: it returns, and every state has the digest
of the input twice over, and its length as its count. -/
def UpdateManyRight (um : List (State a × List Byte) → Res (List (State a))) (dbg : Bool) (ps : List (Params a)) (xs : List (List Byte)) : Prop :=
  ∃ s1 s2, um ((ps.map Params.toState).zip xs) = .ok s1 ∧ um (s1.zip xs) = .ok s2 ∧
    ∀ (i : Nat) p x, ps[i]? = some p → xs[i]? = some x →
      ∃ (s : State a) (h : Hash a) (d : List Byte), s2[i]? = some s ∧ s.getCount dbg = .ok (BitVec.ofNat _ (x ++ x).length) ∧ s.finalize = .ok h ∧ h.asBytes = .ok d ∧
        IsDigest p (x ++ x) d

theorem built_hash {p : Params a} (hp : Built p) (x : List Byte) : ∃ e d, p.hash x = .ok e ∧ e.asBytes = .ok d := by
  obtain ⟨c, r⟩ := hp.rep
  exact ⟨_, _, hash_eq r x, asBytes_full r x⟩

theorem isDigest_iff {p : Params a} {x d d' : List Byte} {e : Hash a} (h : p.hash x = .ok e) (h' : e.asBytes = .ok d') :
    IsDigest p x d ↔ d' = d := by
  refine ⟨fun ⟨e', h1, h2⟩ => ?_, fun hd => ⟨e, h, by rw [h', hd]⟩⟩
  rw [h] at h1
  cases h1
  rw [h'] at h2
  cases h2
  rfl

/-- The comparison in the tests of `hash_many`. -/
theorem check_job {p : Params a} {x : List Byte} {e : Hash a} {d : List Byte} (he : p.hash x = .ok e) (hd : e.asBytes = .ok d) (dbg : Bool)
    (j : HashManyJob a) :
    (j.toHash dbg >>= fun h => e.eqHash h >>= assertThat) = .ok () ↔
      ∃ h d, j.toHash dbg = .ok h ∧ h.asBytes = .ok d ∧ IsDigest p x d := by
  rw [bind_ok_iff]
  refine exists_congr fun h => ?_
  rw [assert_eqHash_iff e h hd]
  constructor
  · rintro ⟨h1, h2⟩
    exact ⟨d, h1, h2, (isDigest_iff he hd).2 rfl⟩
  · rintro ⟨d', h1, h2, h3⟩
    rw [(isDigest_iff he hd).1 h3]
    exact ⟨h1, h2⟩

theorem mapM_length {α β : Type} (f : α → Res β) (l : List α) {r : List β} (h : l.mapM f = .ok r) : r.length = l.length := by
  induction l generalizing r with
  | nil => cases h; rfl
  | cons x xs ih =>
    rw [List.mapM_cons, bind_ok_iff] at h
    obtain ⟨y, _, h⟩ := h
    rw [bind_ok_iff] at h
    obtain ⟨ys, h1, h2⟩ := h
    cases h2
    rw [List.length_cons, List.length_cons, ih h1]

theorem new_jobs {ps : List (Params a)} {xs : List (List Byte)} (hp : ∀ p ∈ ps, Built p) :
    ∃ jobs, (ps.zip xs).mapM (fun q => HashManyJob.new q.1 q.2) = .ok jobs ∧ jobs.length = (ps.zip xs).length := by
  obtain ⟨jobs, out, e1, e2, hlen, _⟩ := C10_hash_many (ps.zip xs) fun q hq => hp _ (List.of_mem_zip hq).1
  exact ⟨jobs, e1, mapM_length _ _ e1⟩

theorem zip_swap_jobs (params : List (Params a)) (inputs : List (List Byte)) :
    (inputs.zip params).mapM (fun q => HashManyJob.new q.2 q.1) = (params.zip inputs).mapM (fun q => HashManyJob.new q.1 q.2) := by
  induction params generalizing inputs with
  | nil => cases inputs <;> rfl
  | cons p ps ih =>
    cases inputs with
    | nil => rfl
    | cons x xs => rw [List.zip_cons_cons, List.zip_cons_cons, List.mapM_cons, List.mapM_cons, ih]

/-- What `Params::hash` gives, for parameters that were built. -/
theorem digests {ps : List (Params a)} (hp : ∀ p ∈ ps, Built p) :
    ∃ g : Params a × List Byte → Hash a, ∀ p ∈ ps, ∀ x, p.hash x = .ok (g (p, x)) ∧ ∃ d, (g (p, x)).asBytes = .ok d := by
  refine ⟨fun q => match q.1.hash q.2 with | .ok h => h | .error _ => { bytes := [], len := 0 }, fun p h x => ?_⟩
  obtain ⟨e, d, h1, h2⟩ := built_hash (hp p h) x
  simp only [h1]
  exact ⟨trivial, d, h2⟩

/-- C69, `fuzz_hash_many`. With any function in the place of `hash_many` that works in place, the test passes exactly if the function
returns and every job has its digest. -/
theorem C69_fuzz_hash_many (hm : List (HashManyJob a) → Res (List (HashManyJob a)))
    (hin : ∀ jobs out, hm jobs = .ok out → out.length = jobs.length) (dbg : Bool) (params : List (Params a)) (inputs : List (List Byte))
    (hl : params.length = inputs.length) (hp : ∀ p ∈ params, Built p) :
    fuzzHashManyOf hm dbg params inputs = .ok () ↔ HashManyRight hm dbg params inputs := by
  obtain ⟨g, hg⟩ := digests hp
  obtain ⟨jobs, hj, lj⟩ := new_jobs (xs := inputs) hp
  have hlen : (params.zip inputs).length = params.length := by rw [List.length_zip]; omega
  unfold fuzzHashManyOf HashManyRight
  rw [list_mapM_ok _ g _ fun q hq => (hg q.1 (List.of_mem_zip hq).1 q.2).1, ok_bind, zip_swap_jobs, hj, ok_bind, bind_ok_iff]
  constructor
  · rintro ⟨out, ho, h⟩
    refine ⟨jobs, out, rfl, ho, fun i p x hip hix => ?_⟩
    have hi := (List.getElem?_eq_some_iff.1 hip).1
    have h := (forM_ok_iff _ _).1 h i (by rw [List.mem_range, hin _ _ ho, lj, hlen]; exact hi)
    rw [bind_ok_iff] at h
    obtain ⟨e, he, h⟩ := h
    rw [bind_ok_iff] at h
    obtain ⟨j, hj', h⟩ := h
    have hz : (params.zip inputs)[i]? = some (p, x) := List.getElem?_zip_eq_some.2 ⟨hip, hix⟩
    rw [getState_ok_iff, List.getElem?_map, hz] at he
    cases he
    have hpm := List.mem_of_getElem? hip
    obtain ⟨d, hd⟩ := (hg p hpm x).2
    obtain ⟨h', d', h1, h2, h3⟩ := (check_job (hg p hpm x).1 hd dbg j).1 h
    exact ⟨j, h', d', (getState_ok_iff _ _ _).1 hj', h1, h2, h3⟩
  · rintro ⟨jobs', out, e, ho, h⟩
    cases e
    refine ⟨out, ho, (forM_ok_iff _ _).2 fun i hi => ?_⟩
    rw [List.mem_range, hin _ _ ho, lj, hlen] at hi
    have hip : params[i]? = some params[i] := List.getElem?_eq_getElem hi
    have hix : inputs[i]? = some inputs[i] := List.getElem?_eq_getElem (by omega)
    obtain ⟨j, h', d', h0, h1, h2, h3⟩ := h i _ _ hip hix
    have hpm := List.mem_of_getElem? hip
    obtain ⟨d, hd⟩ := (hg _ hpm inputs[i]).2
    have hc := (check_job (hg _ hpm inputs[i]).1 hd dbg j).2 ⟨h', d', h1, h2, h3⟩
    have hz : (params.zip inputs)[i]? = some (params[i], inputs[i]) := List.getElem?_zip_eq_some.2 ⟨hip, hix⟩
    rw [show getState ((params.zip inputs).map g) i = .ok (g (params[i], inputs[i])) from (getState_ok_iff _ _ _).2 (by
      rw [List.getElem?_map, hz]; rfl), ok_bind, (getState_ok_iff _ _ _).2 h0, ok_bind]
    exact hc

/-- C69, `test_hash_many`. -/
theorem C69_test_hash_many (hm : List (HashManyJob a) → Res (List (HashManyJob a))) (plat : Platform) (dbg : Bool) (len : Nat)
    (hl : len * a.bb < 2 ^ 31) :
    testHashManyOf a hm plat dbg len = .ok () ↔
      ∃ input ps, paintTestInput (List.replicate (len * a.bb) 0) = .ok input ∧ manyParams a plat len = .ok ps ∧ ps.length = len ∧
        ∀ start, start < len → HashManyRight hm dbg ps ((List.range len).map fun i => input.take ((i + start) % len * a.bb)) := by
  have hb : 1 ≤ a.bb := by cases a <;> decide
  have hlen : len ≤ len * a.bb := Nat.le_mul_of_pos_right _ hb
  obtain ⟨input, e0, l0⟩ := paint_ok a len hl
  obtain ⟨ps, e2, l2, b2⟩ := manyParams_ok a plat len (by omega)
  have e1 : ∀ start, start < len → manyInputs a len start input =
      .ok ((List.range len).map fun i => input.take ((i + start) % len * a.bb)) := by
    intro start hs
    refine list_mapM_ok _ _ _ fun i hi => ?_
    have := Nat.mul_le_mul_right a.bb (Nat.le_of_lt (Nat.mod_lt (i + start) (Nat.lt_of_le_of_lt (Nat.zero_le _) hs)))
    rw [sliceTo, if_pos (by omega)]
  have key : ∀ start, start < len → ((do
      let inputs ← manyInputs a len start input
      let params ← manyParams a plat len
      let jobs ← (params.zip inputs).mapM fun q => HashManyJob.new q.1 q.2
      let jobs ← hm jobs
      (List.range len).forM fun i => do
        let p ← getState params i
        let x ← getState inputs i
        let expected ← p.hash x
        let j ← getState jobs i
        let h ← j.toHash dbg
        let eq ← expected.eqHash h
        assertThat eq : Res Unit) = .ok () ↔
      HashManyRight hm dbg ps ((List.range len).map fun i => input.take ((i + start) % len * a.bb))) := by
    intro start hs
    rw [e1 start hs, ok_bind, e2, ok_bind]
    have hxl : ((List.range len).map fun i => input.take ((i + start) % len * a.bb)).length = len := by simp
    generalize (List.range len).map (fun i => input.take ((i + start) % len * a.bb)) = xs at *
    obtain ⟨jobs, hj, lj⟩ := new_jobs (xs := xs) b2
    unfold HashManyRight
    rw [hj, ok_bind, bind_ok_iff]
    constructor
    · rintro ⟨out, ho, h⟩
      refine ⟨jobs, out, rfl, ho, fun i p x hip hix => ?_⟩
      have hi := (List.getElem?_eq_some_iff.1 hip).1
      have h := (forM_ok_iff _ _).1 h i (by rw [List.mem_range]; omega)
      obtain ⟨e, d, he, hd⟩ := built_hash (b2 p (List.mem_of_getElem? hip)) x
      rw [(getState_ok_iff _ _ _).2 hip, ok_bind, (getState_ok_iff _ _ _).2 hix, ok_bind, he, ok_bind, bind_ok_iff] at h
      obtain ⟨j, hj', h⟩ := h
      obtain ⟨h', d', h1, h2, h3⟩ := (check_job he hd dbg j).1 h
      exact ⟨j, h', d', (getState_ok_iff _ _ _).1 hj', h1, h2, h3⟩
    · rintro ⟨jobs', out, e, ho, h⟩
      cases e
      refine ⟨out, ho, (forM_ok_iff _ _).2 fun i hi => ?_⟩
      rw [List.mem_range] at hi
      have hip : ps[i]? = some (ps[i]'(by omega)) := List.getElem?_eq_getElem (by omega)
      have hix : xs[i]? = some (xs[i]'(by omega)) := List.getElem?_eq_getElem (by omega)
      obtain ⟨j, h', d', h0, h1, h2, h3⟩ := h i _ _ hip hix
      obtain ⟨e, d, he, hd⟩ := built_hash (b2 _ (List.mem_of_getElem? hip)) (xs[i]'(by omega))
      rw [(getState_ok_iff _ _ _).2 hip, ok_bind, (getState_ok_iff _ _ _).2 hix, ok_bind, he, ok_bind, (getState_ok_iff _ _ _).2 h0, ok_bind]
      exact (check_job he hd dbg j).2 ⟨h', d', h1, h2, h3⟩
  unfold testHashManyOf
  rw [e0, ok_bind, forM_ok_iff]
  constructor
  · intro h
    exact ⟨input, ps, rfl, e2, l2, fun start hs => (key start hs).1 (h start (List.mem_range.2 hs))⟩
  · rintro ⟨input', ps', h1, h2, _, h⟩ start hs
    cases h1
    rw [e2] at h2
    cases h2
    exact (key start (List.mem_range.1 hs)).2 (h start (List.mem_range.1 hs))

/-- C69, the example of `hash_many`. -/
theorem C69_doc_hash_many (hm : List (HashManyJob a) → Res (List (HashManyJob a)))
    (hin : ∀ jobs out, hm jobs = .ok out → out.length = jobs.length) (plat : Platform) (dbg : Bool) (calls : List Setter)
    (hr : ∀ c ∈ calls, c.InRange a) (inputs : List (List Byte)) :
    docHashManyOf a hm plat dbg calls inputs = .ok () ↔
      ∃ p, (Params.new a plat).build calls = .ok p ∧ HashManyRight hm dbg (inputs.map fun _ => p) inputs := by
  obtain ⟨p, e⟩ := C03_nonvacuous (a := a) plat calls hr
  have hp : Built p := ⟨plat, calls, e⟩
  have hz : (inputs.map fun _ => p).zip inputs = inputs.map fun x => (p, x) := by
    induction inputs with
    | nil => rfl
    | cons x xs ih => simp only [List.map_cons, List.zip_cons_cons, ih]
  obtain ⟨jobs, hj, lj⟩ := new_jobs (ps := inputs.map fun _ => p) (xs := inputs) (by
    intro q hq
    obtain ⟨_, _, rfl⟩ := List.mem_map.1 hq
    exact hp)
  have hj' : (inputs.mapM fun x => HashManyJob.new p x) = .ok jobs := by
    rw [← hj, hz, List.mapM_map]
    rfl
  rw [hz, List.length_map] at lj
  unfold docHashManyOf HashManyRight
  rw [e, ok_bind, hj', ok_bind, bind_ok_iff]
  constructor
  · rintro ⟨out, ho, h⟩
    refine ⟨p, rfl, jobs, out, hj, ho, fun i p' x hip hix => ?_⟩
    rw [List.getElem?_map, hix] at hip
    cases hip
    have hi := (List.getElem?_eq_some_iff.1 hix).1
    have hio : out[i]? = some (out[i]'(by rw [hin _ _ ho]; omega)) := List.getElem?_eq_getElem _
    have hz : (inputs.zip out)[i]? = some (x, _) := List.getElem?_zip_eq_some.2 ⟨hix, hio⟩
    have h := (forM_ok_iff _ _).1 h _ (List.mem_of_getElem? hz)
    obtain ⟨e, d, he, hd⟩ := built_hash hp x
    simp only [he] at h
    rw [ok_bind] at h
    obtain ⟨h', d', h1, h2, h3⟩ := (check_job he hd dbg _).1 h
    exact ⟨_, h', d', hio, h1, h2, h3⟩
  · rintro ⟨p', e', jobs', out, ej, ho, h⟩
    cases e'
    rw [hj] at ej
    cases ej
    refine ⟨out, ho, (forM_ok_iff _ _).2 fun q hq => ?_⟩
    obtain ⟨i, hq⟩ := List.getElem?_of_mem hq
    obtain ⟨x, j⟩ := q
    obtain ⟨hix, hio⟩ := List.getElem?_zip_eq_some.1 hq
    obtain ⟨j', h', d', h0, h1, h2, h3⟩ := h i p x (by rw [List.getElem?_map, hix]; rfl) hix
    have hio : out[i]? = some j := hio
    rw [hio] at h0
    cases h0
    obtain ⟨e, d, he, hd⟩ := built_hash hp x
    simp only [he]
    rw [ok_bind]
    exact (check_job he hd dbg j).2 ⟨h', d', h1, h2, h3⟩

/-! ## `update_many` -/

theorem update_twice {p : Params a} (hp : Built p) (x : List Byte) : ∃ s1 s2 e d, p.toState.update x = .ok s1 ∧ s1.update x = .ok s2 ∧
    s2.finalize = .ok e ∧ p.hash (x ++ x) = .ok e ∧ e.asBytes = .ok d := by
  obtain ⟨c, r⟩ := hp.rep
  have r1 := HRel.create r
  have r2 := r1.feed x
  have r3 := r2.feed x
  have f := r3.finalize
  simp only [Hasher.feed, List.nil_append] at f
  refine ⟨_, _, _, _, State.update_eq _ x r1.sane, State.update_eq _ x r2.sane, f, ?_, asBytes_config r.valid _⟩
  rw [hash_eq r, r.hashLength]

/-- The comparison of digests in the tests of `update_many`. -/
theorem check_state {p : Params a} {x : List Byte} {e : Hash a} {d : List Byte} (he : p.hash x = .ok e) (hd : e.asBytes = .ok d) (s : State a) :
    (s.finalize >>= fun h => e.eqHash h >>= assertThat) = .ok () ↔ ∃ h d, s.finalize = .ok h ∧ h.asBytes = .ok d ∧ IsDigest p x d := by
  rw [bind_ok_iff]
  refine exists_congr fun h => ?_
  rw [assert_eqHash_iff e h hd]
  constructor
  · rintro ⟨h1, h2⟩
    exact ⟨d, h1, h2, (isDigest_iff he hd).2 rfl⟩
  · rintro ⟨d', h1, h2, h3⟩
    rw [(isDigest_iff he hd).1 h3]
    exact ⟨h1, h2⟩

/-- The comparison of counts. -/
theorem check_count (dbg : Bool) (s : State a) (x : List Byte) :
    (s.getCount dbg >>= fun count => assertThat (2 * BitVec.ofNat (2 * a.w) x.length == count)) = .ok () ↔
      s.getCount dbg = .ok (BitVec.ofNat _ (x ++ x).length) := by
  have e : 2 * BitVec.ofNat (2 * a.w) x.length = BitVec.ofNat _ (x ++ x).length := by
    rw [List.length_append, ← Nat.two_mul, BitVec.ofNat_mul]
    rfl
  rw [e, bind_ok_iff]
  constructor
  · rintro ⟨c, h1, h2⟩
    rw [assertThat_ok_iff, beq_iff_eq] at h2
    rw [h1, h2]
  · exact fun h => ⟨_, h, by rw [beq_self_eq_true]; rfl⟩

theorem bind_unit_ok_iff {x : Res Unit} {y : Res Unit} : (x >>= fun _ => y) = .ok () ↔ x = .ok () ∧ y = .ok () := by
  rw [bind_ok_iff]
  exact ⟨fun ⟨_, h⟩ => h, fun h => ⟨(), h⟩⟩

/-- C69, `fuzz_update_many`. With any function in the place of `update_many` that works in place, the test passes exactly if the function
returns both times and every state has its digest and its count. -/
theorem C69_fuzz_update_many (um : List (State a × List Byte) → Res (List (State a)))
    (hin : ∀ l out, um l = .ok out → out.length = l.length) (dbg : Bool) (params : List (Params a)) (inputs : List (List Byte))
    (hl : params.length = inputs.length) (hp : ∀ p ∈ params, Built p) :
    fuzzUpdateManyOf um dbg params inputs = .ok () ↔ UpdateManyRight um dbg params inputs := by
  have hlen : (params.zip inputs).length = params.length := by rw [List.length_zip]; omega
  obtain ⟨es, he, _, hes⟩ : ∃ es, ((params.zip inputs).mapM fun q => (do
      let state := q.1.toState
      let state ← state.update q.2
      let state ← state.update q.2
      state.finalize : Res (Hash a))) = .ok es ∧ es.length = params.length ∧
      ∀ (i : Nat) p x, params[i]? = some p → inputs[i]? = some x → ∃ e d, es[i]? = some e ∧ p.hash (x ++ x) = .ok e ∧ e.asBytes = .ok d := by
    have ht : ∀ q ∈ params.zip inputs, ∃ e d, (do
        let state := q.1.toState
        let state ← state.update q.2
        let state ← state.update q.2
        state.finalize : Res (Hash a)) = .ok e ∧ q.1.hash (q.2 ++ q.2) = .ok e ∧ e.asBytes = .ok d := by
      intro q hq
      obtain ⟨s1, s2, e, d, h1, h2, h3, h4, h5⟩ := update_twice (hp _ (List.of_mem_zip hq).1) q.2
      exact ⟨e, d, by simp only [h1, h2, h3, ok_bind], h4, h5⟩
    let g : Params a × List Byte → Hash a := fun q => match q.1.hash (q.2 ++ q.2) with | .ok h => h | .error _ => { bytes := [], len := 0 }
    have hg : ∀ q ∈ params.zip inputs, (do
        let state := q.1.toState
        let state ← state.update q.2
        let state ← state.update q.2
        state.finalize : Res (Hash a)) = .ok (g q) := by
      intro q hq
      obtain ⟨e, d, h1, h2, _⟩ := ht q hq
      rw [h1]
      show _ = Except.ok (match q.1.hash (q.2 ++ q.2) with | .ok h => h | .error _ => { bytes := [], len := 0 })
      rw [h2]
    refine ⟨_, list_mapM_ok _ g _ hg, by rw [List.length_map, hlen], fun i p x hip hix => ?_⟩
    have hz : (params.zip inputs)[i]? = some (p, x) := List.getElem?_zip_eq_some.2 ⟨hip, hix⟩
    obtain ⟨e, d, h1, h2, h3⟩ := ht (p, x) (List.mem_of_getElem? hz)
    refine ⟨e, d, ?_, h2, h3⟩
    have := hg (p, x) (List.mem_of_getElem? hz)
    rw [h1] at this
    injection this with this
    rw [List.getElem?_map, hz, Option.map_some, ← this]
  unfold fuzzUpdateManyOf UpdateManyRight
  rw [he, ok_bind]
  simp only
  rw [bind_ok_iff]
  refine exists_congr fun s1 => ?_
  rw [bind_ok_iff]
  constructor
  · rintro ⟨h1, s2, h2, h⟩
    refine ⟨s2, h1, h2, fun i p x hip hix => ?_⟩
    have hi := (List.getElem?_eq_some_iff.1 hip).1
    have h := (forM_ok_iff _ _).1 h i (by
      rw [List.mem_range, hin _ _ h2, List.length_zip, hin _ _ h1, List.length_zip, List.length_map]; omega)
    rw [(getState_ok_iff _ _ _).2 hix, ok_bind, bind_ok_iff] at h
    obtain ⟨s, hs, h⟩ := h
    obtain ⟨e, d, h3, h4, h5⟩ := hes i p x hip hix
    rw [(getState_ok_iff _ _ _).2 h3] at h
    simp only [ok_bind] at h
    rw [bind_ok_iff] at h
    obtain ⟨c, hc, h⟩ := h
    rw [bind_unit_ok_iff] at h
    obtain ⟨h', d', k1, k2, k3⟩ := (check_state h4 h5 s).1 h.2
    exact ⟨s, h', d', (getState_ok_iff _ _ _).1 hs, (check_count dbg s x).1 (by rw [hc, ok_bind]; exact h.1), k1, k2, k3⟩
  · rintro ⟨s2, h1, h2, h⟩
    refine ⟨h1, s2, h2, (forM_ok_iff _ _).2 fun i hi => ?_⟩
    rw [List.mem_range, hin _ _ h2, List.length_zip, hin _ _ h1, List.length_zip, List.length_map] at hi
    have hip : params[i]? = some (params[i]'(by omega)) := List.getElem?_eq_getElem _
    have hix : inputs[i]? = some (inputs[i]'(by omega)) := List.getElem?_eq_getElem _
    obtain ⟨s, h', d', k0, kc, k1, k2, k3⟩ := h i _ _ hip hix
    obtain ⟨e, d, h3, h4, h5⟩ := hes i _ _ hip hix
    rw [(getState_ok_iff _ _ _).2 hix, ok_bind, (getState_ok_iff _ _ _).2 k0, ok_bind, (getState_ok_iff _ _ _).2 h3]
    simp only [ok_bind]
    have hc := (check_count dbg s _).2 kc
    rw [kc, ok_bind] at hc ⊢
    rw [hc, ok_bind]
    exact (check_state h4 h5 s).2 ⟨h', d', k1, k2, k3⟩

/-- C69, `test_update_many`. -/
theorem C69_test_update_many (um : List (State a × List Byte) → Res (List (State a))) (plat : Platform) (dbg : Bool) (len : Nat)
    (hl : len * a.bb < 2 ^ 31) :
    testUpdateManyOf a um plat dbg len = .ok () ↔
      ∃ input ps, paintTestInput (List.replicate (len * a.bb) 0) = .ok input ∧ manyParams a plat len = .ok ps ∧ ps.length = len ∧
        ∀ start, start < len → UpdateManyRight um dbg ps ((List.range len).map fun i => input.take ((i + start) % len * a.bb)) := by
  have hb : 1 ≤ a.bb := by cases a <;> decide
  have hlen : len ≤ len * a.bb := Nat.le_mul_of_pos_right _ hb
  obtain ⟨input, e0, l0⟩ := paint_ok a len hl
  obtain ⟨ps, e2, l2, b2⟩ := manyParams_ok a plat len (by omega)
  have e1 : ∀ start, start < len → manyInputs a len start input =
      .ok ((List.range len).map fun i => input.take ((i + start) % len * a.bb)) := by
    intro start hs
    refine list_mapM_ok _ _ _ fun i hi => ?_
    have := Nat.mul_le_mul_right a.bb (Nat.le_of_lt (Nat.mod_lt (i + start) (Nat.lt_of_le_of_lt (Nat.zero_le _) hs)))
    rw [sliceTo, if_pos (by omega)]
  have key : ∀ start, start < len → ((do
      let inputs ← manyInputs a len start input
      let params ← manyParams a plat len
      let states := params.map Params.toState
      let states ← um (states.zip inputs)
      let states ← um (states.zip inputs)
      (List.range len).forM fun i => do
        let p ← getState params i
        let x ← getState inputs i
        let reference := p.toState
        let reference ← reference.update x
        let reference ← reference.update x
        let expected ← reference.finalize
        let s ← getState states i
        let h ← s.finalize
        let eq ← expected.eqHash h
        assertThat eq
        let count ← s.getCount dbg
        assertThat (2 * BitVec.ofNat (2 * a.w) x.length == count) : Res Unit) = .ok () ↔
      UpdateManyRight um dbg ps ((List.range len).map fun i => input.take ((i + start) % len * a.bb))) := by
    intro start hs
    rw [e1 start hs, ok_bind, e2, ok_bind]
    have hxl : ((List.range len).map fun i => input.take ((i + start) % len * a.bb)).length = len := by simp
    generalize (List.range len).map (fun i => input.take ((i + start) % len * a.bb)) = xs at *
    unfold UpdateManyRight
    simp only
    rw [bind_ok_iff]
    refine exists_congr fun s1 => ?_
    rw [bind_ok_iff]
    constructor
    · rintro ⟨h1, s2, h2, h⟩
      refine ⟨s2, h1, h2, fun i p x hip hix => ?_⟩
      have hi := (List.getElem?_eq_some_iff.1 hip).1
      have h := (forM_ok_iff _ _).1 h i (by rw [List.mem_range]; omega)
      obtain ⟨u1, u2, e, d, q1, q2, q3, q4, q5⟩ := update_twice (b2 p (List.mem_of_getElem? hip)) x
      rw [(getState_ok_iff _ _ _).2 hip, ok_bind, (getState_ok_iff _ _ _).2 hix, ok_bind, q1, ok_bind, q2, ok_bind, q3, ok_bind, bind_ok_iff] at h
      obtain ⟨s, hs, h⟩ := h
      rw [bind_ok_iff] at h
      obtain ⟨h', hf, h⟩ := h
      rw [bind_ok_iff] at h
      obtain ⟨eq, heq, h⟩ := h
      rw [bind_unit_ok_iff] at h
      obtain ⟨h'', d', k1, k2, k3⟩ := (check_state q4 q5 s).1 (by rw [hf, ok_bind, heq, ok_bind]; exact h.1)
      exact ⟨s, h'', d', (getState_ok_iff _ _ _).1 hs, (check_count dbg s x).1 h.2, k1, k2, k3⟩
    · rintro ⟨s2, h1, h2, h⟩
      refine ⟨h1, s2, h2, (forM_ok_iff _ _).2 fun i hi => ?_⟩
      rw [List.mem_range] at hi
      have hip : ps[i]? = some (ps[i]'(by omega)) := List.getElem?_eq_getElem _
      have hix : xs[i]? = some (xs[i]'(by omega)) := List.getElem?_eq_getElem _
      obtain ⟨s, h', d', k0, kc, k1, k2, k3⟩ := h i _ _ hip hix
      obtain ⟨u1, u2, e, d, q1, q2, q3, q4, q5⟩ := update_twice (b2 _ (List.mem_of_getElem? hip)) (xs[i]'(by omega))
      rw [(getState_ok_iff _ _ _).2 hip, ok_bind, (getState_ok_iff _ _ _).2 hix, ok_bind, q1, ok_bind, q2, ok_bind, q3, ok_bind,
        (getState_ok_iff _ _ _).2 k0, ok_bind]
      have hs := (check_state q4 q5 s).2 ⟨h', d', k1, k2, k3⟩
      rw [k1, ok_bind] at hs ⊢
      rw [bind_ok_iff] at hs
      obtain ⟨eq, heq, hs⟩ := hs
      rw [heq, ok_bind, hs, ok_bind]
      exact (check_count dbg s _).2 kc
  unfold testUpdateManyOf
  rw [e0, ok_bind, forM_ok_iff]
  constructor
  · intro h
    exact ⟨input, ps, rfl, e2, l2, fun start hs => (key start hs).1 (h start (List.mem_range.2 hs))⟩
  · rintro ⟨input', ps', h1, h2, _, h⟩ start hs
    cases h1
    rw [e2] at h2
    cases h2
    exact (key start (List.mem_range.1 hs)).2 (h start (List.mem_range.1 hs))

/-- C69, the example of `update_many`: one update of fresh states, digests only. -/
theorem C69_doc_update_many (um : List (State a × List Byte) → Res (List (State a)))
    (hin : ∀ l out, um l = .ok out → out.length = l.length) (plat : Platform) (inputs : List (List Byte)) :
    docUpdateManyOf a um plat inputs = .ok () ↔
      ∃ out, um (inputs.map fun x => (State.new a plat, x)) = .ok out ∧
        ∀ (i : Nat) x, inputs[i]? = some x → ∃ s h, out[i]? = some s ∧ s.finalize = .ok h ∧ h.asBytes = .ok (Spec.hash a (Config.default a) x) := by
  have z : (inputs.map fun _ => State.new a plat).zip inputs = inputs.map fun x => (State.new a plat, x) := by
    induction inputs with
    | nil => rfl
    | cons x xs ih => simp only [List.map_cons, List.zip_cons_cons, ih]
  have hh : ∀ x, ∃ e, blake2 a plat x = .ok e ∧ e.asBytes = .ok (Spec.hash a (Config.default a) x) := by
    intro x
    cases a
    · obtain ⟨h, e, e2, _⟩ := C01_blake2b plat x; exact ⟨h, e, e2⟩
    · obtain ⟨h, e, e2, _⟩ := C02_blake2s plat x; exact ⟨h, e, e2⟩
  unfold docUpdateManyOf
  simp only
  rw [z, bind_ok_iff]
  refine exists_congr fun out => ?_
  constructor
  · rintro ⟨ho, h⟩
    refine ⟨ho, fun i x hix => ?_⟩
    have hi := (List.getElem?_eq_some_iff.1 hix).1
    have hio : out[i]? = some (out[i]'(by rw [hin _ _ ho, List.length_map]; exact hi)) := List.getElem?_eq_getElem _
    have hz : (out.zip inputs)[i]? = some (_, x) := List.getElem?_zip_eq_some.2 ⟨hio, hix⟩
    have h := (forM_ok_iff _ _).1 h _ (List.mem_of_getElem? hz)
    obtain ⟨e, he, hd⟩ := hh x
    simp only [he] at h
    rw [ok_bind, bind_ok_iff] at h
    obtain ⟨h', hf, h⟩ := h
    exact ⟨_, h', hio, hf, (assert_eqHash_iff e h' hd).1 h⟩
  · rintro ⟨ho, h⟩
    refine ⟨ho, (forM_ok_iff _ _).2 fun q hq => ?_⟩
    obtain ⟨i, hq⟩ := List.getElem?_of_mem hq
    obtain ⟨s, x⟩ := q
    obtain ⟨hio, hix⟩ := List.getElem?_zip_eq_some.1 hq
    have hio : out[i]? = some s := hio
    obtain ⟨s', h', h0, h1, h2⟩ := h i x hix
    rw [hio] at h0
    cases h0
    obtain ⟨e, he, hd⟩ := hh x
    simp only [he]
    rw [ok_bind, h1, ok_bind]
    exact (assert_eqHash_iff e h' hd).2 h2

/-! ## The tree variants -/

/-- What `test_against_reference` should find: the tree hash of the input from one update, from two updates with counts and a digest in
between, and from the one-shot function. -/
def TreeRight (t : TreeApi a) (p : PParams a) (dbg : Bool) (input : List Byte) : Prop :=
  (∃ s s' h, t.toState p = .ok s ∧ t.update s input = .ok s' ∧ t.finalize s' = .ok h ∧ h.asBytes = .ok (hashP a (maxOut a) [] input)) ∧
  (∃ s s1 h1 s2 h2, t.toState p = .ok s ∧ t.update s (input.take 1) = .ok s1 ∧ t.count dbg s1 = .ok (BitVec.ofNat _ (input.take 1).length) ∧
    t.finalize s1 = .ok h1 ∧ t.update s1 (input.drop 1) = .ok s2 ∧ t.count dbg s2 = .ok (BitVec.ofNat _ input.length) ∧
    t.finalize s2 = .ok h2 ∧ h2.asBytes = .ok (hashP a (maxOut a) [] input)) ∧
  ∃ h, t.oneShot input = .ok h ∧ h.asBytes = .ok (hashP a (maxOut a) [] input)

theorem assert_bind_ok_iff {b : Bool} {y : Res Unit} : (assertThat b >>= fun _ => y) = .ok () ↔ b = true ∧ y = .ok () := by
  rw [bind_unit_ok_iff, assertThat_ok_iff]

theorem eqHash_bind_ok_iff {e h : Hash a} {d : List Byte} (he : e.asBytes = .ok d) {y : Res Unit} :
    (e.eqHash h >>= fun b => assertThat b >>= fun _ => y) = .ok () ↔ h.asBytes = .ok d ∧ y = .ok () := by
  rw [← assert_eqHash_iff e h he]
  cases e.eqHash h with
  | error f => exact ⟨fun h => (by cases h), fun h => (by cases h.1)⟩
  | ok b => rw [ok_bind, ok_bind, assert_bind_ok_iff, assertThat_ok_iff]

/-- C69, `test_against_reference`. With anything in the place of the tree variants, the test passes exactly if it gives the tree hash. -/
theorem C69_against_reference (t : TreeApi a) (plat : Platform) (dbg portable : Bool) (input : List Byte) :
    testAgainstReferenceOf t plat dbg portable input = .ok () ↔
      TreeRight t (if portable then (PParams.new a plat).forcePortable else PParams.new a plat) dbg input := by
  obtain ⟨h, e1, e2⟩ := C52_reference (a := a) plat plat input
  have hh : h.asBytes = .ok (hashP a (maxOut a) [] input) := by
    cases a
    · obtain ⟨x, h1, h2⟩ := C13_blake2bp plat input
      rw [e2] at h1
      cases h1
      exact h2
    · obtain ⟨x, h1, h2⟩ := C13_blake2sp plat input
      rw [e2] at h1
      cases h1
      exact h2
  have t1 : sliceTo input (min 1 input.length) = .ok (input.take 1) := by
    rw [sliceTo, if_pos (by omega)]
    congr 1
    cases input <;> simp
  have t2 : sliceFrom input (min 1 input.length) = .ok (input.drop 1) := by
    rw [sliceFrom, if_pos (by omega)]
    congr 1
    cases input <;> simp
  have t3 : min 1 input.length = (input.take 1).length := by rw [List.length_take]
  unfold testAgainstReferenceOf TreeRight
  simp only
  generalize (if portable = true then (PParams.new a plat).forcePortable else PParams.new a plat) = p
  rw [e1, ok_bind]
  simp only [t1, t2, ok_bind]
  rw [t3]
  have eqb : ∀ (n : Nat) (c : Count a), (BitVec.ofNat (2 * a.w) n == c) = true ↔ c = BitVec.ofNat _ n := fun n c => by
    rw [beq_iff_eq]; exact eq_comm
  constructor
  · intro g
    rw [bind_ok_iff] at g
    obtain ⟨s, hs, g⟩ := g
    rw [bind_ok_iff] at g
    obtain ⟨s', hs', g⟩ := g
    rw [bind_ok_iff] at g
    obtain ⟨h1, hh1, g⟩ := g
    rw [eqHash_bind_ok_iff hh] at g
    obtain ⟨d1, g⟩ := g
    rw [hs, ok_bind, bind_ok_iff] at g
    obtain ⟨s1, hs1, g⟩ := g
    rw [bind_ok_iff] at g
    obtain ⟨c1, hc1, g⟩ := g
    rw [assert_bind_ok_iff, eqb] at g
    obtain ⟨rfl, g⟩ := g
    rw [bind_ok_iff] at g
    obtain ⟨h2, hh2, g⟩ := g
    rw [bind_ok_iff] at g
    obtain ⟨s2, hs2, g⟩ := g
    rw [bind_ok_iff] at g
    obtain ⟨c2, hc2, g⟩ := g
    rw [assert_bind_ok_iff, eqb] at g
    obtain ⟨rfl, g⟩ := g
    rw [bind_ok_iff] at g
    obtain ⟨h3, hh3, g⟩ := g
    rw [eqHash_bind_ok_iff hh] at g
    obtain ⟨d3, g⟩ := g
    rw [bind_ok_iff] at g
    obtain ⟨h4, hh4, g⟩ := g
    exact ⟨⟨s, s', h1, hs, hs', hh1, d1⟩, ⟨s, s1, h2, s2, h3, hs, hs1, hc1, hh2, hs2, hc2, hh3, d3⟩, h4, hh4, (assert_eqHash_iff h h4 hh).1 g⟩
  · rintro ⟨⟨s, s', h1, hs, hs', hh1, d1⟩, ⟨s0, s1, h2, s2, h3, hs0, hs1, hc1, hh2, hs2, hc2, hh3, d3⟩, h4, hh4, d4⟩
    rw [hs] at hs0
    cases hs0
    rw [hs, ok_bind, hs', ok_bind, hh1, ok_bind, eqHash_bind_ok_iff hh]
    refine ⟨d1, ?_⟩
    rw [ok_bind, hs1, ok_bind, hc1, ok_bind, assert_bind_ok_iff, eqb]
    refine ⟨rfl, ?_⟩
    rw [hh2, ok_bind, hs2, ok_bind, hc2, ok_bind, assert_bind_ok_iff, eqb]
    refine ⟨rfl, ?_⟩
    rw [hh3, ok_bind, eqHash_bind_ok_iff hh]
    refine ⟨d3, ?_⟩
    rw [hh4, ok_bind]
    exact (assert_eqHash_iff h h4 hh).2 d4

/-! ## The compression loops -/

/-- C69, `exercise_compress1_loop`. With any function in the place of the loop, the test of one case passes exactly if the function
gives what the portable implementation gives for the words the test starts from. -/
theorem C69_exercise_compress1 (plat : Platform)
    (loop : List Byte → Vector (Word a) 8 → Count a → Bool → Bool → Stride → Res (Vector (Word a) 8)) (input : List Byte) (stride : Stride)
    (length : Nat) (lastNode finalize : Bool) (count : Count a) (hb : length ≤ input.length)
    (hv : finalize = true ∨ (length ≠ 0 ∧ length % a.bb = 0)) :
    exerciseCompress1Of a plat loop input stride length lastNode finalize count = .ok () ↔
      ∃ w w', initialTestWords a plat 0 = .ok w ∧ compress1 a .Portable (input.take length) w count lastNode finalize stride = .ok w' ∧
        loop (input.take length) w count lastNode finalize stride = .ok w' := by
  have hs : sliceTo input length = .ok (input.take length) := by rw [sliceTo, if_pos hb]
  have hI : InputOk a finalize (input.take length) := validCase_input (by rw [List.length_take]; omega) hv
  unfold exerciseCompress1Of
  rw [hs, ok_bind, referenceCompression_eq plat _ _ _ _ _ 0 (by omega) hI, ok_bind, initialTestWords_eq plat 0 (by omega), ok_bind, ok_bind,
    bind_ok_iff]
  constructor
  · rintro ⟨w, h1, h2⟩
    rw [assertThat_ok_iff, beq_iff_eq] at h2
    exact ⟨_, w, rfl, by rw [compress1_eq a .Portable _ _ _ _ _ _ hI, h2], h1⟩
  · rintro ⟨w, w', h1, h2, h3⟩
    cases h1
    rw [compress1_eq a .Portable _ _ _ _ _ _ hI] at h2
    cases h2
    exact ⟨_, h3, by rw [beq_self_eq_true]; rfl⟩

/-- C69, `exercise_compress2_loop`, `exercise_compress4_loop` and `exercise_compress8_loop`. With any function in the place of the loop, the
test of one case passes exactly if the function gives in every lane what the portable implementation gives. -/
theorem C69_exercise_loop (plat : Platform) {N : Nat} (hN : N ≤ 8) (loopN : Vector (Job a) N → Bool → Stride → Res (Vector (Job a) N))
    (buf : List Byte) (stride : Stride) (length : Nat) (lastNode finalize : Bool) (count : Count a) (hb : length + N ≤ buf.length + 1)
    (hv : finalize = true ∨ (length ≠ 0 ∧ length % a.bb = 0)) :
    exerciseLoop a plat N loopN buf stride length lastNode finalize count = .ok () ↔
      ∃ jobs jobs' : Vector (Job a) N, (∀ i : Fin N, testJob a plat buf length lastNode count i = .ok jobs[i]) ∧
        loopN jobs finalize stride = .ok jobs' ∧
        ∀ i : Fin N, compress1 a .Portable (jobs[i]).input (jobs[i]).words (jobs[i]).count lastNode finalize stride = .ok (jobs'[i]).words := by
  let msg : Nat → List Byte := fun i => (buf.drop i).take length
  let cnt : Nat → Count a := fun i => count + BitVec.ofNat _ (i * a.bb)
  let job : Fin N → Job a := fun i => { input := msg i, words := startWords a i, count := cnt i, lastNode := lastNode }
  have hmsg : ∀ i : Fin N, (msg i).length = length := by
    intro i
    show ((buf.drop i).take length).length = _
    rw [List.length_take, List.length_drop]
    have := i.isLt
    omega
  have hs : ∀ i : Fin N, sliceFrom buf i = .ok (buf.drop i) ∧ sliceTo (buf.drop i) length = .ok (msg i) := by
    intro i
    have := i.isLt
    refine ⟨by rw [sliceFrom, if_pos (by omega)], by rw [sliceTo, if_pos (by rw [List.length_drop]; omega)]⟩
  have hi48 : ∀ i : Fin N, i.val < 2 ^ 48 := fun i => by have := i.isLt; omega
  have hI : ∀ i : Fin N, InputOk a finalize (msg i) := fun i => validCase_input (hmsg i) hv
  have hjob : ∀ i : Fin N, testJob a plat buf length lastNode count i = .ok (job i) := by
    intro i
    unfold testJob
    rw [initialTestWords_eq plat i (hi48 i), ok_bind, (hs i).1, ok_bind, (hs i).2, ok_bind]
  have hcp : ∀ i : Fin N, compress1 a .Portable (job i).input (job i).words (job i).count lastNode finalize stride =
      .ok (absorb a stride finalize lastNode (startWords a i) (cnt i) (msg i)) := fun i => compress1_eq a .Portable _ _ _ _ _ _ (hI i)
  unfold exerciseLoop
  rw [vector_mapM_ok _ (fun i : Fin N => absorb a stride finalize lastNode (startWords a i) (cnt i) (msg i)) _ (by
    intro i _
    unfold testReference
    rw [(hs i).1, ok_bind, (hs i).2, ok_bind]
    exact referenceCompression_eq plat (msg i) stride lastNode finalize (cnt i) i (hi48 i) (hI i)), ok_bind,
    vector_mapM_ok _ job _ (fun i _ => hjob i), ok_bind, bind_ok_iff]
  have hget : ∀ i : Fin N, ((Vector.ofFn (n := N) fun i => i).map job)[i] = job i := fun i => by
    simp only [Fin.getElem_fin, Vector.getElem_map, Vector.getElem_ofFn]
  constructor
  · rintro ⟨jobs', h1, h2⟩
    refine ⟨_, jobs', fun i => by rw [hget, hjob], h1, fun i => ?_⟩
    have h := (forM_ok_iff _ _).1 h2 i (List.mem_finRange i)
    rw [assertThat_ok_iff, beq_iff_eq] at h
    rw [hget, hcp, ← h]
    simp only [Fin.getElem_fin, Vector.getElem_map, Vector.getElem_ofFn]
  · rintro ⟨jobs, jobs', h1, h2, h3⟩
    have hj : jobs = (Vector.ofFn (n := N) fun i => i).map job := by
      refine Vector.ext fun i hi => ?_
      have h := h1 ⟨i, hi⟩
      rw [hjob] at h
      injection h with h
      rw [Vector.getElem_map, Vector.getElem_ofFn]
      exact h.symm
    subst hj
    refine ⟨jobs', h2, (forM_ok_iff _ _).2 fun i _ => ?_⟩
    have h := h3 i
    rw [hget, hcp] at h
    injection h with h
    rw [assertThat_ok_iff, beq_iff_eq, ← h]
    simp only [Fin.getElem_fin, Vector.getElem_map, Vector.getElem_ofFn]

theorem plat_beq (p q : Platform) : (p == q) = true ↔ q = p := by rw [beq_iff_eq]; exact eq_comm

theorem some_plat_beq (p : Platform) (q : Option Platform) : (some p == q) = true ↔ q = some p := by rw [beq_iff_eq]; exact eq_comm

/-- C69, `test_detection`. With any answers of the three functions, the test passes exactly if, with `std` on x86, they are the right ones
for the processor. -/
theorem C69_detection (e : Machine) (h3 : e.cpuAvx2 = true → e.cpuSse41 = true) (det : Platform) (avx2 sse41 : Option Platform) :
    testDetectionOf e det avx2 sse41 = .ok () ↔ (e.x86 = true → e.std = true →
      det = (if e.cpuAvx2 then .AVX2 else if e.cpuSse41 then .SSE41 else .Portable) ∧
      avx2 = (if e.cpuAvx2 then some .AVX2 else none) ∧ sse41 = (if e.cpuSse41 then some .SSE41 else none)) := by
  unfold testDetectionOf
  rw [assert_bind_ok_iff]
  obtain ⟨x, b1, b2, st, c1, c2⟩ := e
  simp only at h3 ⊢
  cases x <;> cases st <;> cases c1 <;> cases c2 <;> first | exact absurd (h3 rfl) (by decide) | skip
  all_goals
    simp [assert_bind_ok_iff, assertThat_ok_iff, -beq_iff_eq, plat_beq, some_plat_beq]

/-- C69, `test_degree`. -/
theorem C69_degree (e : Machine) (d : Nat) :
    testDegreeOf a e d = .ok () ↔ d ≤ maxDegreeOn a e.x86 ∧ (e.x86 = true → e.std = true →
      (e.cpuAvx2 = true → d ≥ match a with | .b => 4 | .s => 8) ∧ (e.cpuSse41 = true → d ≥ match a with | .b => 2 | .s => 4)) := by
  unfold testDegreeOf
  rw [assert_bind_ok_iff, decide_eq_true_iff]
  refine and_congr_right fun _ => ?_
  obtain ⟨x, b1, b2, st, c1, c2⟩ := e
  cases a <;> cases x <;> cases st <;> cases c1 <;> cases c2 <;>
    simp [bind_unit_ok_iff, assertThat_ok_iff]

/-! ## The hypotheses are met -/

/-- `hash_many` works in place. -/
theorem hashMany_length {jobs out : List (HashManyJob a)} (h : hashMany jobs = .ok out) : out.length = jobs.length := by
  cases jobs with
  | nil => cases h; rfl
  | cons j js =>
    unfold hashMany at h
    simp only [bind_ok_iff] at h
    obtain ⟨mem, _, h⟩ := h
    cases h
    rw [List.length_ofFn]

/-- `update_many` works in place. -/
theorem updateMany_length {l : List (State a × List Byte)} {out : List (State a)} (h : updateMany l = .ok out) : out.length = l.length := by
  cases l with
  | nil => cases h; rfl
  | cons j js =>
    unfold updateMany at h
    simp only [bind_ok_iff] at h
    obtain ⟨mem, _, h⟩ := h
    cases h
    rw [List.length_ofFn]

theorem built_new (a : Alg) (plat : Platform) : Built (Params.new a plat) := ⟨plat, [], rfl⟩

/-- The right functions pass, and the tests say that they are right. -/
example : HashManyRight hashMany true [Params.new .b .AVX2, Params.new .b .AVX2] [[1], List.replicate 300 2] :=
  (C69_fuzz_hash_many _ (fun _ _ h => hashMany_length h) true _ _ rfl (by simp [built_new])).1
    (C54_fuzz_hash_many true _ _ rfl (by simp [built_new]))

example : UpdateManyRight updateMany true [Params.new .s .AVX2, Params.new .s .AVX2] [[1], List.replicate 300 2] :=
  (C69_fuzz_update_many _ (fun _ _ h => updateMany_length h) true _ _ rfl (by simp [built_new])).1
    (C54_fuzz_update_many true _ _ rfl (by simp [built_new]) (by
      intro x hx
      rw [List.mem_cons, List.mem_singleton] at hx
      rcases hx with rfl | rfl
      · decide
      · rw [List.length_replicate]; decide))

example (plat : Platform) (dbg : Bool) (input : List Byte) : TreeRight (treeApi a plat) (PParams.new a plat) dbg input :=
  (C69_against_reference _ plat dbg false input).1 (C54_against_reference plat dbg false input)

theorem not_ok {r : Res Unit} (h : r.isOk = false) : r ≠ .ok () := fun e => by rw [e] at h; cases h

/-- A `hash_many` that does nothing is noticed, whether or not debug assertions are on. -/
example (dbg : Bool) : fuzzHashManyOf (a := .s) (fun jobs => .ok jobs) dbg [Params.new .s .Portable] [[1]] ≠ .ok () := by
  cases dbg <;> exact not_ok (by decide +kernel)

/-- One that does the first job only is noticed. -/
example : fuzzHashManyOf (a := .s) (fun jobs => match jobs with
    | [] => .ok []
    | j :: js => do let r ← hashMany [j]; .ok (r ++ js)) false [Params.new .s .SSE41, Params.new .s .SSE41] [[1], [2]] ≠ .ok () :=
  not_ok (by decide +kernel)

/-- An `update_many` that does nothing is noticed. -/
example : fuzzUpdateManyOf (a := .b) (fun l => .ok (l.map Prod.fst)) true [Params.new .b .Portable] [[1]] ≠ .ok () := not_ok (by decide +kernel)

/-- A loop that leaves the words alone is noticed. -/
example : exerciseLoop .s .Portable 4 (fun jobs _ _ => .ok jobs) (List.replicate 70 5) .Serial 64 false false 0 ≠ .ok () := not_ok (by decide +kernel)

/-- The limit of `fuzz_hash_many`: a function that gives back fewer jobs than it got is not noticed, so working in place is a hypothesis. -/
example : fuzzHashManyOf (a := .s) (fun _ => .ok []) true [Params.new .s .Portable] [[1]] = .ok () := rfl

end Blake2
