import Verif.Properties.Hashing
/-!
# Properties of BLAKE2bp and BLAKE2sp

C13, C14, C15 and C39, and the tree versions of C08, C24, C29, C33, C34, C35 and C42.
-/
namespace Blake2
open Spec

variable {a : Alg}

/-- The parameters of a successful sequence of builder calls. -/
theorem pbuilt_rep {plat : Platform} {calls : List PSetter} {p : PParams a} (hb : (PParams.new a plat).build calls = .ok p) :
    PRep a (pconfigOf a calls).hashLength (pconfigOf a calls).key p ∧ p.implementation = plat := by
  by_cases hr : ∀ x ∈ calls, x.InRange a
  · obtain ⟨p', e, h, hi⟩ := prep_build (c := PConfig.default a) (prep_new a plat) calls hr
    rw [hb] at e
    cases e
    exact ⟨h, hi⟩
  · exfalso
    apply hr
    intro x hx
    refine Classical.byContradiction fun hx' => ?_
    have : ∀ (p0 : PParams a), ∀ p1, p0.build calls ≠ .ok p1 := by
      clear hb hr
      induction calls with
      | nil => cases hx
      | cons y ys ih =>
        intro p0 p1 e
        rw [PParams.build, List.foldlM_cons] at e
        by_cases hxy : x = y
        · subst hxy
          rw [prun_panics _ _ hx'] at e; cases e
        · cases er : y.run p0 with
          | error f => rw [er] at e; cases e
          | ok p2 => rw [er] at e; exact ih (by simpa [hxy] using hx) p2 p1 e
    exact this _ _ hb

theorem pbuild_ok (plat : Platform) (calls : List PSetter) (hr : ∀ x ∈ calls, x.InRange a) :
    ∃ p, (PParams.new a plat).build calls = .ok p := by
  obtain ⟨p, e, _⟩ := prep_build (c := PConfig.default a) (prep_new a plat) calls hr
  exact ⟨p, e⟩

theorem pupd_foldlM {h : PHasher} {s : PState a} (r : PHRel a h s) (xs : List (List Byte)) :
    ∃ s', xs.foldlM PState.update s = .ok s' ∧ PHRel a { h with msg := h.msg ++ xs.flatten } s' := by
  induction xs generalizing h s with
  | nil => exact ⟨s, rfl, by simpa using r⟩
  | cons x xs ih =>
    obtain ⟨s1, e1, r1, _⟩ := r.update x
    obtain ⟨s', e, hr⟩ := ih r1
    refine ⟨s', ?_, ?_⟩
    · rw [List.foldlM_cons, e1]; exact e
    · simpa [PHasher.feed] using hr

/-! ## C13 -/

/-- C13. `blake2bp::blake2bp(input)` is the four-leaf tree hash, on every platform. -/
theorem C13_blake2bp (plat : Platform) (input : List Byte) :
    ∃ h, blake2p .b plat input = .ok h ∧ h.asBytes = .ok (Spec.hashP .b 64 [] input) := by
  have r := prep_new .b plat
  exact ⟨_, PParams.hash_eq r input, r.asBytes input⟩

/-- C13. `blake2sp::blake2sp(input)` is the eight-leaf tree hash, on every platform. -/
theorem C13_blake2sp (plat : Platform) (input : List Byte) :
    ∃ h, blake2p .s plat input = .ok h ∧ h.asBytes = .ok (Spec.hashP .s 32 [] input) := by
  have r := prep_new .s plat
  exact ⟨_, PParams.hash_eq r input, r.asBytes input⟩

/-- C13. Whatever builder calls were made, `Params::hash` is the tree hash for the resulting length and key. -/
theorem C13_params (plat : Platform) (calls : List PSetter) (p : PParams a)
    (hb : (PParams.new a plat).build calls = .ok p) (input : List Byte) :
    ∃ h, p.hash input = .ok h ∧
      h.asBytes = .ok (Spec.hashP a (pconfigOf a calls).hashLength (pconfigOf a calls).key input) := by
  obtain ⟨r, _⟩ := pbuilt_rep hb
  exact ⟨_, PParams.hash_eq r input, r.asBytes input⟩

example : ∃ p h, (PParams.new .s .SSE41).build [.key [1, 2, 3], .hashLength 20] = .ok p ∧ p.hash [7, 8] = .ok h ∧
    h.asBytes = .ok (Spec.hashP .s 20 [1, 2, 3] [7, 8]) :=
  let ⟨p, e⟩ := pbuild_ok (a := .s) .SSE41 [.key [1, 2, 3], .hashLength 20] (by decide)
  let ⟨h, h1, h2⟩ := C13_params .SSE41 _ p e [7, 8]
  ⟨p, h, e, h1, h2⟩

example : ∃ p, (PParams.new .s .SSE41).build [.key [1, 2, 3], .hashLength 20] = .ok p := pbuild_ok _ _ (by decide)

/-! ## C14 -/

/-- C14. Any way of splitting the input over `update` calls gives the tree hash of the concatenation, the same `Hash` as
`Params::hash`. -/
theorem C14_update_split (plat : Platform) (calls : List PSetter) (p : PParams a)
    (hb : (PParams.new a plat).build calls = .ok p) (slices : List (List Byte)) :
    ∃ s0 s h, p.toState = .ok s0 ∧ slices.foldlM PState.update s0 = .ok s ∧ s.finalize = .ok h ∧
      p.hash slices.flatten = .ok h ∧
      h.asBytes = .ok (Spec.hashP a (pconfigOf a calls).hashLength (pconfigOf a calls).key slices.flatten) := by
  obtain ⟨r, _⟩ := pbuilt_rep hb
  obtain ⟨s0, e0, r0⟩ := PHRel.create r
  obtain ⟨s, es, rs⟩ := pupd_foldlM r0 slices
  refine ⟨s0, s, _, e0, es, rs.finalize, ?_, ?_⟩
  · rw [PParams.hash_eq r, r.hashLength]; rfl
  · exact asBytes_pconfig r.le _

example : ∃ s0 s h, (PParams.new .b .AVX2).toState = .ok s0 ∧
    ([List.replicate 1000 1, [], [2], List.replicate 383 3, List.replicate 1024 4] : List (List Byte)).foldlM
      PState.update s0 = .ok s ∧ s.finalize = .ok h :=
  let ⟨s0, s, h, h1, h2, h3, _⟩ := C14_update_split (a := .b) .AVX2 [] _ rfl
    [List.replicate 1000 1, [], [2], List.replicate 383 3, List.replicate 1024 4]
  ⟨s0, s, h, h1, h2, h3⟩

/-! ## C33 -/

/-- C33 for the tree variants. -/
theorem C33_tree_histories (dbg : Bool) (ops : List (POp Platform)) (hv : ValidPHistory a dbg [] ops) :
    ∃ ss, pexecAll dbg ([] : List (PState a)) ops = .ok (ss, panswers a [] ops) := by
  obtain ⟨ss, e, _⟩ := pexecAll_refines (a := a) rel_nil dbg ops hv
  exact ⟨ss, e⟩

/-- A history with a keyed state, a clone and interleaved finalizations. -/
def samplePHistory : List (POp Platform) :=
  [.create .AVX2 [.key [9, 9]], .create .Portable [.hashLength 20], .update 0 [1, 2, 3], .clone 0, .finalize 0,
   .update 2 (List.replicate 500 1), .write 0 (List.replicate 600 2), .flush 1, .write 1 [5],
   .finalize 0, .finalize 1, .count 2]

theorem samplePHistory_valid : ValidPHistory .b true [] samplePHistory := by
  decide +kernel

example : ∃ ss, pexecAll true ([] : List (PState .b)) samplePHistory = .ok (ss, panswers .b [] samplePHistory) :=
  C33_tree_histories true _ samplePHistory_valid

/-! ## C15, C42 -/

/-- C15, first part. Leaving all `finalize` and `count` calls out of a history changes neither the resulting states nor any
other answer. -/
theorem C15_queries_change_nothing (dbg : Bool) (ss ss' : List (PState a)) (ops : List (POp Platform)) (os : List Obs)
    (h : pexecAll dbg ss ops = .ok (ss', os)) :
    pexecAll dbg ss (ops.filter fun op => !op.isQuery) =
      .ok (ss', ((ops.zip os).filter fun p => !p.1.isQuery).map Prod.snd) := by
  induction ops generalizing ss os with
  | nil =>
    simp only [pexecAll, Except.ok.injEq, Prod.mk.injEq] at h
    obtain ⟨rfl, rfl⟩ := h
    rfl
  | cons op ops ih =>
    simp only [pexecAll, bind, Except.bind] at h
    cases e : op.exec dbg ss with
    | error f => rw [e] at h; cases h
    | ok r =>
      obtain ⟨s1, o⟩ := r
      rw [e] at h
      simp only at h
      cases e2 : pexecAll dbg s1 ops with
      | error f => rw [e2] at h; cases h
      | ok r2 =>
        obtain ⟨s2, os2⟩ := r2
        rw [e2] at h
        simp only [Except.ok.injEq, Prod.mk.injEq] at h
        obtain ⟨rfl, rfl⟩ := h
        have hrec := ih s1 os2 e2
        by_cases hq : op.isQuery = true
        · have hs : s1 = ss := by
            cases op <;> simp only [POp.isQuery, Bool.false_eq_true] at hq
            · rename_i i
              simp only [POp.exec, bind, Except.bind] at e
              cases e3 : getState ss i with
              | error f => rw [e3] at e; cases e
              | ok s =>
                rw [e3] at e
                simp only at e
                cases e4 : s.finalize with
                | error f => rw [e4] at e; cases e
                | ok hh =>
                  rw [e4] at e
                  simp only at e
                  cases e5 : hh.asBytes with
                  | error f => rw [e5] at e; cases e
                  | ok d => rw [e5] at e; simp only [Except.ok.injEq, Prod.mk.injEq] at e; exact e.1.symm
            · rename_i i
              simp only [POp.exec, bind, Except.bind] at e
              cases e3 : getState ss i with
              | error f => rw [e3] at e; cases e
              | ok s =>
                rw [e3] at e
                simp only at e
                cases e4 : s.getCount dbg with
                | error f => rw [e4] at e; cases e
                | ok hh => rw [e4] at e; simp only [Except.ok.injEq, Prod.mk.injEq] at e; exact e.1.symm
          subst hs
          simpa [hq] using hrec
        · have hq' : op.isQuery = false := by simpa using hq
          simp [hq', pexecAll, e, hrec, bind, Except.bind]

/-- Without its `finalize` and `count` calls the sample history still runs, to the same states. -/
example : ∃ ss os os', pexecAll true ([] : List (PState .b)) samplePHistory = .ok (ss, os) ∧
    pexecAll true ([] : List (PState .b)) (samplePHistory.filter fun op => !op.isQuery) = .ok (ss, os') ∧ os'.length < os.length :=
  let ⟨ss, e⟩ := C33_tree_histories true _ samplePHistory_valid
  ⟨ss, _, _, e, C15_queries_change_nothing true [] ss _ _ e, by decide +kernel⟩

/-- C15, second part. `finalize` at any point of any history returns the tree hash of exactly the bytes fed to that state so
far. -/
theorem C15_finalize_value (dbg : Bool) (pre : List (POp Platform)) (i : Nat) (h : PHasher)
    (hv : ValidPHistory a dbg [] pre) (hi : (phistory a [] pre)[i]? = some h) :
    ∃ ss s d, pexecAll dbg ([] : List (PState a)) pre = .ok (ss, panswers a [] pre) ∧ ss[i]? = some s ∧
      s.finalize = .ok d ∧ d.asBytes = .ok (Spec.hashP a h.config.hashLength h.config.key h.msg) := by
  obtain ⟨ss, e, r⟩ := pexecAll_refines (a := a) rel_nil dbg pre hv
  have hlt : i < (phistory a [] pre).length := (List.getElem?_eq_some_iff.1 hi).1
  obtain ⟨s, _, es, hr⟩ := r.get hlt
  have : (phistory a [] pre)[i] = h := (List.getElem?_eq_some_iff.1 hi).2
  rw [this] at hr
  exact ⟨ss, s, _, e, es, hr.finalize, asBytes_pconfig hr.2.2.2.2.1 _⟩

example : ∃ ss s d, pexecAll true ([] : List (PState .b)) samplePHistory = .ok (ss, panswers .b [] samplePHistory) ∧
    ss[1]? = some s ∧ s.finalize = .ok d :=
  let ⟨ss, s, d, h1, h2, h3, _⟩ := C15_finalize_value (a := .b) true samplePHistory 1 _ samplePHistory_valid rfl
  ⟨ss, s, d, h1, h2, h3⟩

/-- C42 for the tree variants. What `count` returns, exactly, after any updates. -/
theorem C42_tree_count_exact (plat : Platform) (calls : List PSetter) (p : PParams a)
    (hb : (PParams.new a plat).build calls = .ok p) (slices : List (List Byte)) (dbg : Bool) :
    ∃ s0 s, p.toState = .ok s0 ∧ slices.foldlM PState.update s0 = .ok s ∧
      s.getCount dbg =
        if dbg = true ∧ (pconfigOf a calls).key ≠ [] ∧
          (degree a * bb a + slices.flatten.length) % 2 ^ (2 * a.w) < degree a * bb a
        then .error .panic
        else .ok (BitVec.ofNat (2 * a.w) slices.flatten.length) := by
  obtain ⟨hr, _⟩ := pbuilt_rep hb
  obtain ⟨s0, e0, r0⟩ := PHRel.create hr
  obtain ⟨s, es, r⟩ := pupd_foldlM r0 slices
  exact ⟨s0, s, e0, es, r.count_exact dbg⟩

example : ∃ p s0 s, (PParams.new .b .AVX2).build [.key [1]] = .ok p ∧ p.toState = .ok s0 ∧
    ([[1, 2], List.replicate 300 3] : List (List Byte)).foldlM PState.update s0 = .ok s ∧ s.getCount true = .ok 302 :=
  let ⟨p, e⟩ := pbuild_ok (a := .b) .AVX2 [.key [1]] (by decide)
  let ⟨s0, s, h0, h1, h2⟩ := C42_tree_count_exact .AVX2 _ p e [[1, 2], List.replicate 300 3] true
  ⟨p, s0, s, e, h0, h1, (h2.trans (if_neg (by decide +kernel))).trans (congrArg _ (by decide +kernel))⟩

/-- C15, third part. `count` is the number of bytes fed, whenever that number (plus, in debug builds, the key blocks) fits the
counter type; `C42_tree_count_exact` describes the rest. -/
theorem C15_count (plat : Platform) (calls : List PSetter) (p : PParams a)
    (hb : (PParams.new a plat).build calls = .ok p) (slices : List (List Byte)) (dbg : Bool)
    (hfit : slices.flatten.length + (if dbg = true ∧ (pconfigOf a calls).key ≠ [] then degree a * bb a else 0)
      < 2 ^ (2 * a.w)) :
    ∃ s0 s c, p.toState = .ok s0 ∧ slices.foldlM PState.update s0 = .ok s ∧ s.getCount dbg = .ok c ∧
      c.toNat = slices.flatten.length := by
  obtain ⟨s0, s, e0, es, e⟩ := C42_tree_count_exact plat calls p hb slices dbg
  have hlt : slices.flatten.length < 2 ^ (2 * a.w) := by omega
  refine ⟨s0, s, BitVec.ofNat (2 * a.w) slices.flatten.length, e0, es, ?_, ?_⟩
  · rw [e, if_neg]
    rintro ⟨h1, h2, h3⟩
    rw [if_pos ⟨h1, h2⟩] at hfit
    rw [Nat.mod_eq_of_lt (by omega)] at h3
    omega
  · rw [BitVec.toNat_ofNat, Nat.mod_eq_of_lt hlt]

/-- C15 for release builds: for every total, `count` is the number of bytes fed modulo the range of the counter type. -/
theorem C15_count_release (plat : Platform) (calls : List PSetter) (p : PParams a)
    (hb : (PParams.new a plat).build calls = .ok p) (slices : List (List Byte)) :
    ∃ s0 s c, p.toState = .ok s0 ∧ slices.foldlM PState.update s0 = .ok s ∧ s.getCount false = .ok c ∧
      c.toNat = slices.flatten.length % 2 ^ (2 * a.w) := by
  obtain ⟨s0, s, e0, es, e⟩ := C42_tree_count_exact plat calls p hb slices false
  refine ⟨s0, s, BitVec.ofNat (2 * a.w) slices.flatten.length, e0, es, ?_, BitVec.toNat_ofNat ..⟩
  rw [e, if_neg (by simp)]

example : ∃ s0 s c, (PParams.new .s .Portable).toState = .ok s0 ∧
    ([[1, 2, 3], [4]] : List (List Byte)).foldlM PState.update s0 = .ok s ∧ s.getCount false = .ok c ∧ c.toNat = 4 :=
  C15_count_release (a := .s) .Portable [] _ rfl [[1, 2, 3], [4]]

example : ∃ s0 s c, (PParams.new .s .Portable).toState = .ok s0 ∧
    ([[1, 2, 3], [4]] : List (List Byte)).foldlM PState.update s0 = .ok s ∧ s.getCount true = .ok c ∧ c.toNat = 4 :=
  C15_count (a := .s) .Portable [] _ rfl [[1, 2, 3], [4]] true (by decide)

/-! ## C08, C35 -/

theorem pnext_onPlatforms {π ρ : Type} (f : π → ρ) (hs : List PHasher) (op : POp π) :
    (op.onPlatforms f).next a hs = op.next a hs := by cases op <;> rfl
theorem panswer_onPlatforms {π ρ : Type} (f : π → ρ) (hs : List PHasher) (op : POp π) :
    (op.onPlatforms f).answer a hs = op.answer a hs := by cases op <;> rfl
theorem pvalid_onPlatforms {π ρ : Type} (f : π → ρ) (dbg : Bool) (hs : List PHasher) (op : POp π) :
    (op.onPlatforms f).Valid a dbg hs = op.Valid a dbg hs := by cases op <;> rfl

theorem panswers_onPlatforms {π ρ : Type} (f : π → ρ) (hs : List PHasher) (ops : List (POp π)) :
    panswers a hs (ops.map (POp.onPlatforms f)) = panswers a hs ops := by
  induction ops generalizing hs with
  | nil => rfl
  | cons op ops ih => simp only [List.map_cons, panswers, pnext_onPlatforms, panswer_onPlatforms, ih]

theorem pvalidHistory_onPlatforms {π ρ : Type} (f : π → ρ) (dbg : Bool) (hs : List PHasher) (ops : List (POp π)) :
    ValidPHistory a dbg hs (ops.map (POp.onPlatforms f)) = ValidPHistory a dbg hs ops := by
  induction ops generalizing hs with
  | nil => rfl
  | cons op ops ih => simp only [List.map_cons, ValidPHistory, pnext_onPlatforms, pvalid_onPlatforms, ih]

/-- C08 for the tree variants. -/
theorem C08_tree_histories {π : Type} (f g : π → Platform) (dbg : Bool) (ops : List (POp π))
    (hv : ValidPHistory a dbg [] ops) :
    ∃ ss ss' os, pexecAll dbg ([] : List (PState a)) (ops.map (POp.onPlatforms f)) = .ok (ss, os) ∧
      pexecAll dbg ([] : List (PState a)) (ops.map (POp.onPlatforms g)) = .ok (ss', os) := by
  obtain ⟨ss, e⟩ := C33_tree_histories (a := a) dbg (ops.map (POp.onPlatforms f))
    (by rw [pvalidHistory_onPlatforms]; exact hv)
  obtain ⟨ss', e'⟩ := C33_tree_histories (a := a) dbg (ops.map (POp.onPlatforms g))
    (by rw [pvalidHistory_onPlatforms]; exact hv)
  rw [panswers_onPlatforms] at e e'
  exact ⟨ss, ss', _, e, e'⟩

example : ∃ ss ss' os,
    pexecAll true ([] : List (PState .b)) (samplePHistory.map (POp.onPlatforms fun _ => .Portable)) = .ok (ss, os) ∧
    pexecAll true ([] : List (PState .b)) (samplePHistory.map (POp.onPlatforms fun _ => .AVX2)) = .ok (ss', os) :=
  C08_tree_histories (fun _ => .Portable) (fun _ => .AVX2) true _ samplePHistory_valid

theorem PRep.withImplementation {n : Nat} {key : List Byte} {p : PParams a} (h : PRep a n key p) (plat : Platform) :
    PRep a n key { p with implementation := plat } := ⟨h.1, h.2, h.3, h.4, h.5, h.6⟩

/-- C08 for one-shot tree hashing. -/
theorem C08_tree_hash (plat plat' : Platform) (calls : List PSetter) (p : PParams a)
    (hb : (PParams.new a plat).build calls = .ok p) (input : List Byte) :
    ({ p with implementation := plat' } : PParams a).hash input = p.hash input := by
  obtain ⟨hr, _⟩ := pbuilt_rep hb
  rw [PParams.hash_eq hr, PParams.hash_eq (hr.withImplementation plat')]

example : ({ PParams.new .b .AVX2 with implementation := .SSE41 } : PParams .b).hash [1, 2] = (PParams.new .b .AVX2).hash [1, 2] :=
  C08_tree_hash (a := .b) .AVX2 .SSE41 [] _ rfl [1, 2]

/-- C35 for the tree variants. -/
theorem C35_tree_force_portable (plat : Platform) (calls : List PSetter) (p : PParams a)
    (hb : (PParams.new a plat).build calls = .ok p) (slices : List (List Byte)) :
    p.forcePortable.hash slices.flatten = p.hash slices.flatten ∧ p.forcePortable.implementation = .Portable ∧
    ∃ s0 s0' s s' h, p.toState = .ok s0 ∧ p.forcePortable.toState = .ok s0' ∧
      slices.foldlM PState.update s0 = .ok s ∧ slices.foldlM PState.update s0' = .ok s' ∧
      s.finalize = .ok h ∧ s'.finalize = .ok h ∧ ∀ dbg, s.getCount dbg = s'.getCount dbg := by
  obtain ⟨hr, _⟩ := pbuilt_rep hb
  have hr' := hr.withImplementation .Portable
  obtain ⟨s0, e0, r0⟩ := PHRel.create hr
  obtain ⟨s0', e0', r0'⟩ := PHRel.create (c := pconfigOf a calls) hr'
  obtain ⟨s, es, r⟩ := pupd_foldlM r0 slices
  obtain ⟨s', es', r'⟩ := pupd_foldlM r0' slices
  refine ⟨C08_tree_hash plat .Portable calls p hb _, rfl, s0, s0', s, s', _, e0, e0', es, es', r.finalize, r'.finalize,
    fun dbg => ?_⟩
  unfold PState.getCount
  simp only [r.total, r'.total, r.2.2.2.1, r'.2.2.2.1]

example : ((PParams.new .b .AVX2).forcePortable).hash [1, 2] = (PParams.new .b .AVX2).hash [1, 2] :=
  (C35_tree_force_portable (a := .b) .AVX2 [] _ rfl [[1, 2]]).1

/-! ## C24 -/

/-- C24 for the tree variants. -/
theorem C24_tree_write (s : PState a) (buf : List Byte) :
    s.write buf = (s.update buf).map (fun s' => (s', buf.length)) ∧ s.flush = .ok s := by
  refine ⟨?_, rfl⟩
  unfold PState.write
  cases s.update buf <;> rfl

/-- C24 for the tree variants, consequence: `io::copy` of any chunks into a state hashes their concatenation. -/
theorem C24_tree_io_copy (plat : Platform) (calls : List PSetter) (p : PParams a)
    (hb : (PParams.new a plat).build calls = .ok p) (chunks : List (List Byte)) :
    ∃ s0 s h, p.toState = .ok s0 ∧ ioCopy PState.write s0 chunks = .ok (some s) ∧ s.finalize = .ok h ∧
      h.asBytes = .ok (Spec.hashP a (pconfigOf a calls).hashLength (pconfigOf a calls).key chunks.flatten) := by
  obtain ⟨hr, _⟩ := pbuilt_rep hb
  have key : ∀ (cs : List (List Byte)) (h : PHasher) (s : PState a), PHRel a h s →
      ∃ s', ioCopy PState.write s cs = .ok (some s') ∧ PHRel a { h with msg := h.msg ++ cs.flatten } s' := by
    intro cs
    induction cs with
    | nil => intro h s r; exact ⟨s, rfl, by simpa using r⟩
    | cons c cs ih =>
      intro h s r
      by_cases hc : c = []
      · subst hc
        obtain ⟨s', e, r'⟩ := ih h s r
        refine ⟨s', ?_, by simpa using r'⟩
        rw [ioCopy]
        simpa [writeAll, bind, Except.bind] using e
      · obtain ⟨s1, e1, r1, _⟩ := r.update c
        obtain ⟨s', e, r'⟩ := ih _ _ r1
        refine ⟨s', ?_, by simpa [PHasher.feed] using r'⟩
        rw [ioCopy, writeAll_ok _ s s1 c _ hc]
        · simpa [bind, Except.bind] using e
        · rw [(C24_tree_write s c).1, e1]; rfl
  obtain ⟨s0, e0, r0⟩ := PHRel.create hr
  obtain ⟨s, e, r⟩ := key chunks _ _ r0
  exact ⟨s0, s, _, e0, e, r.finalize, asBytes_pconfig r.2.2.2.2.1 _⟩

example : ∃ s0 s, (PParams.new .s .SSE41).toState = .ok s0 ∧
    ioCopy PState.write s0 [[1, 2], [], List.replicate 1000 3] = .ok (some s) :=
  let ⟨s0, s, _, h1, h2, _⟩ := C24_tree_io_copy (a := .s) .SSE41 [] _ rfl [[1, 2], [], List.replicate 1000 3]
  ⟨s0, s, h1, h2⟩

/-! ## C29 -/

theorem copyAt_nil (buf : List Byte) (off : Nat) (h : off ≤ buf.length) : copyAt buf off [] = .ok buf := by
  simp [copyAt, copyRange, h]

theorem PReachable.rel {s : PState a} (h : PReachable s) : ∃ h, PHRel a h s := by
  obtain ⟨dbg, ops, ss, os, hv, he, hs⟩ := h
  obtain ⟨ss', e, r⟩ := pexecAll_refines (a := a) rel_nil dbg ops hv
  rw [he] at e
  simp only [Except.ok.injEq, Prod.mk.injEq] at e
  obtain ⟨rfl, _⟩ := e
  obtain ⟨i, hi, rfl⟩ := List.getElem_of_mem hs
  exact ⟨_, r.2 i (by rw [← r.1]; exact hi) hi⟩

/-- C29 for the tree variants. In every state a client can reach, `update(&[])` leaves the state exactly as it was. -/
theorem C29_tree_empty_update (s : PState a) (h : PReachable s) : s.update [] = .ok s := by
  obtain ⟨h, ⟨k, hk⟩, _⟩ := h.rel
  have h1 := hk.small
  have h2 := hk.bufLength
  have h3 := stripe_lt a
  have hf : s.fillBuf [] = .ok (s, []) := by
    unfold PState.fillBuf
    have : checkedSub s.buf.length s.bufLen = .ok (s.buf.length - s.bufLen) := by
      unfold checkedSub; rw [if_pos (by omega)]
    simp only [this, bind, Except.bind, List.length_nil, Nat.min_zero, sliceTo, sliceFrom, Nat.le_refl, if_true,
      List.take_nil, List.drop_nil, copyAt_nil _ _ (show s.bufLen ≤ s.buf.length by omega), addU16, Nat.zero_mod,
      Nat.add_zero, if_pos (show s.bufLen < 65536 by omega)]
  have hb : s.updateBuffered [] = .ok (s, []) := by
    unfold PState.updateBuffered
    split
    · simp [hf, bind, Except.bind]
    · rfl
  have hu : s.updateBulk [] = .ok (s, []) := by
    unfold PState.updateBulk
    simp
  unfold PState.update
  simp only [hb, hu, hf, bind, Except.bind]
  rfl

/-- All states of a valid history are reachable. -/
theorem preachable_of_history (dbg : Bool) (ops : List (POp Platform)) (hv : ValidPHistory a dbg [] ops) :
    ∃ ss os, pexecAll dbg ([] : List (PState a)) ops = .ok (ss, os) ∧ ss.length = (phistory a [] ops).length ∧
      ∀ s ∈ ss, PReachable s := by
  obtain ⟨ss, e, r⟩ := pexecAll_refines (a := a) rel_nil dbg ops hv
  exact ⟨ss, _, e, r.1, fun s hs => ⟨dbg, ops, ss, _, hv, e, hs⟩⟩

example : ∃ ss os, pexecAll true ([] : List (PState .b)) samplePHistory = .ok (ss, os) ∧
    ss.length = (phistory .b [] samplePHistory).length ∧ ∀ s ∈ ss, PReachable s :=
  preachable_of_history true _ samplePHistory_valid

/-! ## C34 -/

/-- C34 for the tree variants, frame: an operation that does not name state `i` as its target leaves state `i` exactly as it was. -/
theorem C34_tree_frame (dbg : Bool) (ss ss' : List (PState a)) (op : POp Platform) (o : Obs) (i : Nat) (hi : i < ss.length)
    (h : op.exec dbg ss = .ok (ss', o)) (ht : op.targets i = false) : ss'[i]? = ss[i]? := by
  have bindOk : ∀ {α β : Type} {x : Res α} {f : α → Res β} {y : β}, (x >>= f) = .ok y → ∃ v, x = .ok v ∧ f v = .ok y := by
    intro α β x f y h
    cases x with
    | error e => cases h
    | ok v => exact ⟨v, rfl, h⟩
  cases op with
  | create plat calls =>
    simp only [POp.exec] at h
    obtain ⟨p, _, h⟩ := bindOk h
    obtain ⟨s, _, h⟩ := bindOk h
    simp only [Except.ok.injEq, Prod.mk.injEq] at h
    rw [← h.1, List.getElem?_append_left hi]
  | clone j =>
    simp only [POp.exec] at h
    obtain ⟨p, _, h⟩ := bindOk h
    simp only [Except.ok.injEq, Prod.mk.injEq] at h
    rw [← h.1, List.getElem?_append_left hi]
  | update j x =>
    simp only [POp.exec] at h
    obtain ⟨s, _, h⟩ := bindOk h
    obtain ⟨s', _, h⟩ := bindOk h
    simp only [Except.ok.injEq, Prod.mk.injEq] at h
    have hne : j ≠ i := by simpa [POp.targets] using ht
    rw [← h.1, List.getElem?_set_ne hne]
  | write j x =>
    simp only [POp.exec] at h
    obtain ⟨s, _, h⟩ := bindOk h
    obtain ⟨s', _, h⟩ := bindOk h
    simp only [Except.ok.injEq, Prod.mk.injEq] at h
    have hne : j ≠ i := by simpa [POp.targets] using ht
    rw [← h.1, List.getElem?_set_ne hne]
  | flush j =>
    simp only [POp.exec, PState.flush] at h
    obtain ⟨s, hs, h⟩ := bindOk h
    simp only [bind, Except.bind, Except.ok.injEq, Prod.mk.injEq] at h
    rw [← h.1, set_self (getState_ok hs)]
  | finalize j =>
    simp only [POp.exec] at h
    obtain ⟨s, _, h⟩ := bindOk h
    obtain ⟨s', _, h⟩ := bindOk h
    obtain ⟨s'', _, h⟩ := bindOk h
    simp only [Except.ok.injEq, Prod.mk.injEq] at h
    rw [← h.1]
  | count j =>
    simp only [POp.exec] at h
    obtain ⟨s, _, h⟩ := bindOk h
    obtain ⟨s', _, h⟩ := bindOk h
    simp only [Except.ok.injEq, Prod.mk.injEq] at h
    rw [← h.1]

/-- An update of state 0 does not touch state 1. -/
example : ∃ (s t : PState .b) (ss' : List (PState .b)) (o : Obs),
    (POp.update 0 [1, 2, 3] : POp Platform).exec true [s, t] = .ok (ss', o) ∧ ss'[1]? = some t :=
  let ⟨s, _, r⟩ := PHRel.create (c := PConfig.default .b) (prep_new .b .AVX2)
  let ⟨t, _, r'⟩ := PHRel.create (c := PConfig.default .b) (prep_new .b .SSE41)
  let ⟨ss', e, _⟩ := pexec_refines ((rel_nil.append r).append r') true (.update 0 [1, 2, 3]) (by decide)
  ⟨s, t, ss', _, e, C34_tree_frame true [s, t] ss' (.update 0 [1, 2, 3]) _ 1 (by simp) e rfl⟩

/-- C34 for the tree variants. A clone starts as an exact copy at a new place, and no history that does not name one of the two changes it: whatever
is done to the original leaves the clone alone, and conversely. -/
theorem C34_tree_clones_independent (dbg : Bool) (ss ss1 ss2 : List (PState a)) (i k : Nat) (o : Obs) (ops : List (POp Platform))
    (os : List Obs) (hc : (POp.clone i : POp Platform).exec dbg ss = .ok (ss1, o)) (hk : k < ss1.length)
    (h : pexecAll dbg ss1 ops = .ok (ss2, os)) (ht : ∀ op ∈ ops, op.targets k = false) :
    (∃ s, ss[i]? = some s ∧ ss1 = ss ++ [s]) ∧ ss2[k]? = ss1[k]? := by
  constructor
  · simp only [POp.exec, bind, Except.bind] at hc
    cases e : getState ss i with
    | error f => rw [e] at hc; cases hc
    | ok s =>
      rw [e] at hc
      simp only [Except.ok.injEq, Prod.mk.injEq] at hc
      exact ⟨s, getState_ok e, hc.1.symm⟩
  · clear hc
    induction ops generalizing ss1 os with
    | nil =>
      simp only [pexecAll, Except.ok.injEq, Prod.mk.injEq] at h
      rw [h.1]
    | cons op ops ih =>
      simp only [pexecAll, bind, Except.bind] at h
      cases e : op.exec dbg ss1 with
      | error f => rw [e] at h; cases h
      | ok r =>
        obtain ⟨s1, o1⟩ := r
        rw [e] at h
        simp only at h
        cases e2 : pexecAll dbg s1 ops with
        | error f => rw [e2] at h; cases h
        | ok r2 =>
          obtain ⟨s2, os2⟩ := r2
          rw [e2] at h
          simp only [Except.ok.injEq, Prod.mk.injEq] at h
          have hf := C34_tree_frame dbg ss1 s1 op o1 k hk e (ht op (by simp))
          have hk' : k < s1.length := by
            have := (List.getElem?_eq_some_iff (l := s1) (i := k)).1 (hf.trans (List.getElem?_eq_getElem hk))
            exact this.1
          rw [← hf]
          exact ih s1 os2 hk' (by rw [e2, ← h.1]) (fun op' hop' => ht op' (by simp [hop']))

/-- State 1 is a clone of state 0; everything that follows is aimed at state 0. -/
example : ∃ (ss0 ss1 ss2 : List (PState .b)) (o : Obs) (os : List Obs), ss0.length = 1 ∧
    (POp.clone 0 : POp Platform).exec true ss0 = .ok (ss1, o) ∧
    pexecAll true ss1 [.update 0 [1, 2], .finalize 1, .write 0 (List.replicate 2000 7)] =
      .ok (ss2, os) ∧ ss2[1]? = ss1[1]? := by
  obtain ⟨s0, e0, r0⟩ := PHRel.create (c := PConfig.default .b) (prep_new .b .AVX2)
  have r1 := (rel_nil.append r0).append r0
  obtain ⟨ss2, e, _⟩ := pexecAll_refines r1 true ([.update 0 [1, 2], .finalize 1,
    .write 0 (List.replicate 2000 7)] : List (POp Platform)) (by decide +kernel)
  exact ⟨[s0], _, ss2, _, _, rfl, rfl, e,
    (C34_tree_clones_independent true [s0] _ ss2 0 1 _ _ _ rfl (by simp) e (by decide)).2⟩

/-! ## C39 -/

theorem gather_getElem? (P : Nat) (hP : 0 < P) (hb : a.bb ≤ P) (x : List Byte) (q r : Nat) (hr : r < a.bb) :
    (gather a P hP x)[q * a.bb + r]? = x[q * P + r]? := by
  induction q generalizing x with
  | zero =>
    rw [gather_unfold]
    simp only [Nat.zero_mul, Nat.zero_add]
    by_cases h : r < (x.take a.bb).length
    · rw [List.getElem?_append_left h, List.getElem?_take_of_lt hr]
    · have h' : x.length ≤ r := by
        rw [List.length_take] at h; omega
      rw [List.drop_eq_nil_of_le (by omega), gather_nil, List.append_nil, List.getElem?_eq_none (by omega),
        List.getElem?_eq_none h']
  | succ q ih =>
    rw [gather_unfold, Nat.succ_mul, Nat.succ_mul]
    by_cases h : a.bb ≤ x.length
    · have hl : (x.take a.bb).length = a.bb := by rw [List.length_take]; omega
      rw [List.getElem?_append_right (by omega), hl, show q * a.bb + a.bb + r - a.bb = q * a.bb + r by omega, ih,
        List.getElem?_drop]
      congr 1; omega
    · have hl : (x.take a.bb).length < a.bb := by rw [List.length_take]; omega
      rw [List.drop_eq_nil_of_le (by omega), gather_nil, List.append_nil, List.getElem?_eq_none (by omega),
        List.getElem?_eq_none (by omega)]

/-- C39. Where every byte goes: byte `r` of the `q`-th block of leaf `i`'s message is byte `r` of block `q * degree + i` of the
input, and there is nothing else in the leaf. Every input position is `(q * degree + i) * bb + r` for exactly one choice of
`i`, `q`, `r`. -/
theorem C39_leaf_bytes (msg : List Byte) (i q r : Nat) (hi : i < degree a) (hr : r < bb a) :
    (leafMsg a msg i)[q * bb a + r]? = msg[(q * degree a + i) * bb a + r]? := by
  have hi' : i < parDegree a := by rw [← degree_eq]; exact hi
  rw [bb_eq] at *
  rw [leafMsg_eq_leaf hi', leaf, gather_getElem? _ _ (bb_le_stripe a) _ _ _ hr, List.getElem?_drop, stripe, degree_eq]
  congr 1
  rw [Nat.add_mul, Nat.mul_assoc]
  omega

/-- C39. The input is determined by its leaf messages: distinct inputs of any lengths
give distinct leaf messages. -/
theorem C39_injective (msg msg' : List Byte) (h : ∀ i < degree a, leafMsg a msg i = leafMsg a msg' i) : msg = msg' := by
  have hb : 0 < bb a := by cases a <;> decide
  have hd : 0 < degree a := by cases a <;> decide
  apply List.ext_getElem?
  intro n
  have h1 : n = ((n / bb a / degree a) * degree a + n / bb a % degree a) * bb a + n % bb a := by
    rw [Nat.mul_comm (n / bb a / degree a), Nat.div_add_mod, Nat.mul_comm (n / bb a), Nat.div_add_mod]
  have hi := Nat.mod_lt (n / bb a) hd
  have hr := Nat.mod_lt n hb
  rw [h1, ← C39_leaf_bytes msg _ _ _ hi hr, ← C39_leaf_bytes msg' _ _ _ hi hr, h _ hi]

/-- Inputs that differ in their last byte only differ in some leaf. -/
example : ¬ ∀ i < degree .s, leafMsg .s [1, 2, 3] i = leafMsg .s [1, 2, 4] i := fun h => by
  have := C39_injective [1, 2, 3] [1, 2, 4] h
  simp at this

/-- C39 for the code: what `Params::hash` returns is the root hash of the hashes of these leaf messages. -/
theorem C39_hash_of_leaves (plat : Platform) (calls : List PSetter) (p : PParams a)
    (hb : (PParams.new a plat).build calls = .ok p) (input : List Byte) (n : Nat) (key : List Byte)
    (hn : n = (pconfigOf a calls).hashLength) (hk : key = (pconfigOf a calls).key) :
    ∃ h, p.hash input = .ok h ∧
      h.asBytes = .ok ((wordsToBytes a (process a (initH a (rootConfig a n key))
        ((List.range (degree a)).flatMap fun i => hashFull a (leafConfig a n key i) (leafMsg a input i)) true)).take n) := by
  subst hn hk
  exact C13_params plat calls p hb input

example : ∃ p h, (PParams.new .s .SSE41).build [.key [1, 2, 3], .hashLength 20] = .ok p ∧ p.hash [7, 8] = .ok h :=
  let ⟨p, e⟩ := pbuild_ok (a := .s) .SSE41 [.key [1, 2, 3], .hashLength 20] (by decide)
  let ⟨h, h1, _⟩ := C39_hash_of_leaves .SSE41 _ p e [7, 8] _ _ rfl rfl
  ⟨p, h, e, h1⟩

/-- A byte in the third leaf's second block. -/
example : (leafMsg .b ((List.range 1024).map (BitVec.ofNat 8)) 2)[1 * 128 + 5]? = some (BitVec.ofNat 8 (6 * 128 + 5)) := by
  rw [show (128 : Nat) = bb .b from rfl, C39_leaf_bytes _ 2 1 5 (by decide) (by decide)]
  decide +kernel

end Blake2
