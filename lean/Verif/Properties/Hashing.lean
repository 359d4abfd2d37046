import Verif.Proofs.History
/-!
# Properties of one-shot and incremental hashing

C01, C02, C03, C04, C05, C06, C07, C08, C24, C29, C33, C34, C35 and C42 of `properties.jsonl`.

Vocabulary. `Spec.*` is the specification (`Verif/Spec.lean`, `Verif/ApiSpec.lean`); everything else named in a statement is
the model of a Rust function. `Params.new a plat` is `Params::new()` on a machine where `Implementation::detect()` answers
`plat`; `p.build calls` runs builder calls in order; `.ok x` means the Rust function returns `x` and does not panic.
-/
namespace Blake2
open Spec

variable {a : Alg}

/-- The parameters of a successful sequence of builder calls. -/
theorem built_rep {plat : Platform} {calls : List Setter} {p : Params a} (hb : (Params.new a plat).build calls = .ok p) :
    Rep a (configOf a calls) p ∧ p.implementation = plat := by
  by_cases hr : ∀ x ∈ calls, x.InRange a
  · obtain ⟨p', e, h, hi⟩ := rep_build (rep_new a plat) calls hr
    rw [hb] at e
    cases e
    exact ⟨h, hi⟩
  · have : ∃ x ∈ calls, ¬ x.InRange a := Classical.byContradiction fun hn =>
      hr fun x hx => Classical.byContradiction fun hx' => hn ⟨x, hx, hx'⟩
    rw [build_panics _ _ this _ (rep_new a plat)] at hb
    cases hb

theorem upd_foldlM {h : Hasher} {s : State a} (r : HRel a h s) (xs : List (List Byte)) :
    ∃ s', xs.foldlM State.update s = .ok s' ∧ HRel a { h with msg := h.msg ++ xs.flatten } s' ∧
      s'.implementation = s.implementation := by
  induction xs generalizing h s with
  | nil => exact ⟨s, rfl, by simpa using r, rfl⟩
  | cons x xs ih =>
    obtain ⟨s', e, hr, hi⟩ := ih (r.feed x)
    refine ⟨s', ?_, ?_, hi.trans (State.upd_meta s x).implementation⟩
    · rw [List.foldlM_cons, State.update_eq s x r.sane]; exact e
    · simpa [Hasher.feed] using hr

/-! ## C01, C02 -/

/-- C01. `blake2b(input)` is the 64-byte BLAKE2b digest of RFC 7693, on every platform. -/
theorem C01_blake2b (plat : Platform) (input : List Byte) :
    ∃ h, blake2 .b plat input = .ok h ∧ h.asBytes = .ok (Spec.hash .b (Config.default .b) input) ∧
      (Spec.hash .b (Config.default .b) input).length = 64 := by
  refine ⟨_, hash_eq (rep_new .b plat) input, asBytes_full (rep_new .b plat) input, ?_⟩
  rw [Spec.hash, List.length_take, hashFull, wordsToBytes_length]; rfl

/-- C02. `blake2s(input)` is the 32-byte BLAKE2s digest of RFC 7693, on every platform. -/
theorem C02_blake2s (plat : Platform) (input : List Byte) :
    ∃ h, blake2 .s plat input = .ok h ∧ h.asBytes = .ok (Spec.hash .s (Config.default .s) input) ∧
      (Spec.hash .s (Config.default .s) input).length = 32 := by
  refine ⟨_, hash_eq (rep_new .s plat) input, asBytes_full (rep_new .s plat) input, ?_⟩
  rw [Spec.hash, List.length_take, hashFull, wordsToBytes_length]; rfl

/-! ## C03 -/

/-- C03. Whatever builder calls were made (as long as none panicked), `Params::hash` and
`to_state().update(input).finalize()` return the same `Hash`, whose bytes are the BLAKE2 digest for the parameters the calls
established. -/
theorem C03_params (plat : Platform) (calls : List Setter) (p : Params a)
    (hb : (Params.new a plat).build calls = .ok p) (input : List Byte) :
    ∃ h, p.hash input = .ok h ∧
      (do let s ← p.toState.update input
          s.finalize) = .ok h ∧
      h.asBytes = .ok (Spec.hash a (configOf a calls) input) := by
  obtain ⟨hr, _⟩ := built_rep hb
  refine ⟨_, hash_eq hr input, ?_, asBytes_full hr input⟩
  have r := HRel.create hr
  simp only [bind, Except.bind, State.update_eq _ input r.sane]
  rw [(r.feed input).finalize, hr.hashLength]
  rfl

/-- Builder calls in range do not panic, so `C03_params` has instances with every parameter set. -/
theorem C03_nonvacuous (plat : Platform) (calls : List Setter) (hr : ∀ x ∈ calls, x.InRange a) :
    ∃ p, (Params.new a plat).build calls = .ok p := by
  obtain ⟨p, e, _, _⟩ := rep_build (rep_new a plat) calls hr
  exact ⟨p, e⟩

example : ∃ p h, (Params.new .s .SSE41).build [.key [1, 2, 3], .hashLength 17] = .ok p ∧ p.hash [7, 8] = .ok h ∧
    h.asBytes = .ok (Spec.hash .s (configOf .s [.key [1, 2, 3], .hashLength 17]) [7, 8]) :=
  let ⟨p, e⟩ := C03_nonvacuous (a := .s) .SSE41 [.key [1, 2, 3], .hashLength 17] (by decide)
  let ⟨h, h1, _, h2⟩ := C03_params .SSE41 _ p e [7, 8]
  ⟨p, h, e, h1, h2⟩

/-- A keyed, salted, personalised, truncated hash in tree mode on an AVX2 machine meets the hypotheses. -/
example : ∃ p, (Params.new .b .AVX2).build
    [.key [1, 2, 3], .salt [4], .personal [5, 6], .hashLength 17, .nodeOffset 9, .fanout 2, .maxDepth 3, .lastNode true] = .ok p :=
  C03_nonvacuous _ _ (by decide)

/-! ## C04 -/

/-- C04. Any way of splitting the input over `update` calls gives the hash of the concatenation. -/
theorem C04_update_split (plat : Platform) (calls : List Setter) (p : Params a)
    (hb : (Params.new a plat).build calls = .ok p) (slices : List (List Byte)) :
    ∃ s h, slices.foldlM State.update p.toState = .ok s ∧ s.finalize = .ok h ∧ p.hash slices.flatten = .ok h ∧
      (do let s1 ← p.toState.update slices.flatten
          s1.finalize) = .ok h ∧
      h.asBytes = .ok (Spec.hash a (configOf a calls) slices.flatten) := by
  obtain ⟨h, e1, e2, e3⟩ := C03_params plat calls p hb slices.flatten
  obtain ⟨hr, _⟩ := built_rep hb
  obtain ⟨s, es, r, _⟩ := upd_foldlM (HRel.create hr) slices
  refine ⟨s, h, es, ?_, e1, e2, e3⟩
  rw [r.finalize, ← hr.hashLength, ← e1, hash_eq hr]
  rfl

example : ∃ s h, ([[1], [], [2, 3], List.replicate 300 7] : List (List Byte)).foldlM State.update
      (Params.new .s .SSE41).toState = .ok s ∧ s.finalize = .ok h :=
  let ⟨s, h, h1, h2, _⟩ := C04_update_split (a := .s) .SSE41 [] _ rfl [[1], [], [2, 3], List.replicate 300 7]
  ⟨s, h, h1, h2⟩

/-! ## C33 -/

/-- C33. Over any history of creations, clones, updates, batch updates, writes, flushes, last-node changes, finalizations and
counts on any population of states, nothing panics and the client is told exactly what the specification says for the
abstract hashers: each state behaves as the pair of its parameters and the bytes fed to it. -/
theorem C33_histories (dbg : Bool) (ops : List (Op Platform)) (hv : ValidHistory a dbg [] ops) :
    ∃ ss, execAll dbg ([] : List (State a)) ops = .ok (ss, answers a [] ops) := by
  obtain ⟨ss, e, _⟩ := execAll_refines (a := a) rel_nil dbg ops hv
  exact ⟨ss, e⟩

/-- A history with a keyed state, a clone, a batch, an interleaved finalize and a late last-node change. -/
def sampleHistory : List (Op Platform) :=
  [.create .AVX2 [.key [9, 9]], .create .Portable [.hashLength 20], .update 0 [1, 2, 3], .clone 0, .finalize 0,
   .updateMany [(2, List.replicate 500 1), (0, [4]), (1, List.replicate 129 2)], .setLastNode 1 true, .flush 1, .write 1 [5],
   .finalize 0, .finalize 1, .count 2]

theorem sampleHistory_valid : ValidHistory .b true [] sampleHistory := by
  decide +kernel

example : ∃ ss, execAll true ([] : List (State .b)) sampleHistory = .ok (ss, answers .b [] sampleHistory) :=
  C33_histories true _ sampleHistory_valid

/-! ## C05 -/

/-- C05, first part. Leaving all `finalize` and `count` calls out of a history changes neither the resulting states nor any
other answer: they are pure observations. -/
theorem C05_queries_change_nothing (dbg : Bool) (ss ss' : List (State a)) (ops : List (Op Platform)) (os : List Obs)
    (h : execAll dbg ss ops = .ok (ss', os)) :
    execAll dbg ss (ops.filter fun op => !op.isQuery) =
      .ok (ss', ((ops.zip os).filter fun p => !p.1.isQuery).map Prod.snd) := by
  induction ops generalizing ss os with
  | nil =>
    simp only [execAll, Except.ok.injEq, Prod.mk.injEq] at h
    obtain ⟨rfl, rfl⟩ := h
    rfl
  | cons op ops ih =>
    simp only [execAll, bind, Except.bind] at h
    cases e : op.exec dbg ss with
    | error f => rw [e] at h; cases h
    | ok r =>
      obtain ⟨s1, o⟩ := r
      rw [e] at h
      simp only at h
      cases e2 : execAll dbg s1 ops with
      | error f => rw [e2] at h; cases h
      | ok r2 =>
        obtain ⟨s2, os2⟩ := r2
        rw [e2] at h
        simp only [Except.ok.injEq, Prod.mk.injEq] at h
        obtain ⟨rfl, rfl⟩ := h
        have hrec := ih s1 os2 e2
        by_cases hq : op.isQuery = true
        · have hs : s1 = ss := by
            cases op <;> simp only [Op.isQuery, Bool.false_eq_true] at hq
            · rename_i i
              simp only [Op.exec, bind, Except.bind] at e
              cases e3 : getState ss i with
              | error f => rw [e3] at e; cases e
              | ok s =>
                rw [e3] at e
                simp only at e
                cases e4 : s.finalize with
                | error f => rw [e4] at e; cases e
                | ok hh =>
                  rw [e4] at e
                  simp only at e
                  cases e5 : hh.asBytes with
                  | error f => rw [e5] at e; cases e
                  | ok d => rw [e5] at e; simp only [Except.ok.injEq, Prod.mk.injEq] at e; exact e.1.symm
            · rename_i i
              simp only [Op.exec, bind, Except.bind] at e
              cases e3 : getState ss i with
              | error f => rw [e3] at e; cases e
              | ok s =>
                rw [e3] at e
                simp only at e
                cases e4 : s.getCount dbg with
                | error f => rw [e4] at e; cases e
                | ok hh => rw [e4] at e; simp only [Except.ok.injEq, Prod.mk.injEq] at e; exact e.1.symm
          subst hs
          simpa [hq] using hrec
        · have hq' : op.isQuery = false := by simpa using hq
          simp [hq', execAll, e, hrec, bind, Except.bind]

/-- Without its `finalize` and `count` calls the sample history still runs, to the same states. -/
example : ∃ ss os os', execAll true ([] : List (State .b)) sampleHistory = .ok (ss, os) ∧
    execAll true ([] : List (State .b)) (sampleHistory.filter fun op => !op.isQuery) = .ok (ss, os') ∧ os'.length < os.length :=
  let ⟨ss, e⟩ := C33_histories true _ sampleHistory_valid
  ⟨ss, _, _, e, C05_queries_change_nothing true [] ss _ _ e, by decide +kernel⟩

/-- C05, second part. `finalize` at any point of any history, however often it was called before, returns the digest of
exactly the bytes fed to that state so far. -/
theorem C05_finalize_value (dbg : Bool) (pre : List (Op Platform)) (i : Nat) (h : Hasher)
    (hv : ValidHistory a dbg [] pre) (hi : (history a [] pre)[i]? = some h) :
    ∃ ss s d, execAll dbg ([] : List (State a)) pre = .ok (ss, answers a [] pre) ∧ ss[i]? = some s ∧
      s.finalize = .ok d ∧ d.asBytes = .ok (Spec.hash a h.config h.msg) := by
  obtain ⟨ss, e, r⟩ := execAll_refines (a := a) rel_nil dbg pre hv
  have hlt : i < (history a [] pre).length := (List.getElem?_eq_some_iff.1 hi).1
  obtain ⟨s, _, es, hr⟩ := r.get hlt
  have : (history a [] pre)[i] = h := (List.getElem?_eq_some_iff.1 hi).2
  rw [this] at hr
  exact ⟨ss, s, _, e, es, hr.finalize, asBytes_config hr.2.2.2.2 _⟩

example : ∃ ss s d, execAll true ([] : List (State .b)) sampleHistory = .ok (ss, answers .b [] sampleHistory) ∧
    ss[1]? = some s ∧ s.finalize = .ok d :=
  let ⟨ss, s, d, h1, h2, h3, _⟩ := C05_finalize_value (a := .b) true sampleHistory 1 _ sampleHistory_valid rfl
  ⟨ss, s, d, h1, h2, h3⟩

/-! ## C06 -/

/-- One call on a state: an update or a `set_last_node`. -/
def feedOrFlag (s : State a) : List Byte ⊕ Bool → Res (State a)
  | .inl x => s.update x
  | .inr b => .ok (s.setLastNode b)

theorem feedOrFlag_foldlM {h : Hasher} {s : State a} (r : HRel a h s) (es : List (List Byte ⊕ Bool)) :
    ∃ s', es.foldlM feedOrFlag s = .ok s' ∧
      HRel a { config := { h.config with lastNode := es.foldl (fun f e => e.elim (fun _ => f) id) h.config.lastNode },
               msg := h.msg ++ es.flatMap (fun e => e.elim id fun _ => []) } s' := by
  induction es generalizing h s with
  | nil => exact ⟨s, rfl, by simpa using r⟩
  | cons e es ih =>
    cases e with
    | inl x =>
      obtain ⟨s', e, hr⟩ := ih (r.feed x)
      refine ⟨s', ?_, ?_⟩
      · rw [List.foldlM_cons, feedOrFlag, State.update_eq s x r.sane]; exact e
      · simpa [Hasher.feed] using hr
    | inr b =>
      obtain ⟨s', e, hr⟩ := ih (r.setLast b)
      refine ⟨s', ?_, ?_⟩
      · rw [List.foldlM_cons, feedOrFlag]; exact e
      · simpa [Hasher.setLast] using hr

/-- C06. `set_last_node` calls anywhere among the updates: only the last one counts, and the digest is the one of a state (or
one-shot hash) whose parameters had that flag from the start. -/
theorem C06_set_last_node (plat : Platform) (calls : List Setter) (p : Params a)
    (hb : (Params.new a plat).build calls = .ok p) (events : List (List Byte ⊕ Bool)) (flag : Bool) (msg : List Byte)
    (hflag : flag = events.foldl (fun f e => e.elim (fun _ => f) id) (configOf a calls).lastNode)
    (hmsg : msg = events.flatMap fun e => e.elim id fun _ => []) :
    ∃ s h p', events.foldlM feedOrFlag p.toState = .ok s ∧ s.finalize = .ok h ∧
      (Params.new a plat).build (calls ++ [.lastNode flag]) = .ok p' ∧ p'.hash msg = .ok h ∧
      h.asBytes = .ok (Spec.hash a { configOf a calls with lastNode := flag } msg) := by
  obtain ⟨hr, _⟩ := built_rep hb
  obtain ⟨s, es, r⟩ := feedOrFlag_foldlM (HRel.create hr) events
  obtain ⟨p', ep, hr', _⟩ := rep_run hr (.lastNode flag) trivial
  have hb' : (Params.new a plat).build (calls ++ [.lastNode flag]) = .ok p' := by
    rw [Params.build, List.foldlM_append]
    rw [Params.build] at hb
    rw [hb]
    simp only [bind, Except.bind, List.foldlM_cons, List.foldlM_nil, ep]
    rfl
  refine ⟨s, _, p', es, r.finalize, hb', ?_, ?_⟩
  · rw [hash_eq hr', hr'.hashLength]
    simp only [← hflag, List.nil_append, ← hmsg]
    rfl
  · have := asBytes_config r.2.2.2.2 msg
    simp only [← hflag, List.nil_append, ← hmsg] at this ⊢
    exact this

example : ∃ s h, ([.inl [1, 2], .inr true, .inl (List.replicate 200 3), .inr false, .inr true] :
      List (List Byte ⊕ Bool)).foldlM feedOrFlag (Params.new .b .Portable).toState = .ok s ∧ s.finalize = .ok h :=
  let ⟨s, h, _, h1, h2, _⟩ := C06_set_last_node (a := .b) .Portable [] _ rfl
    [.inl [1, 2], .inr true, .inl (List.replicate 200 3), .inr false, .inr true] _ _ rfl rfl
  ⟨s, h, h1, h2⟩

/-! ## C07, C42 -/

/-- C42. What `count` returns, exactly, after any updates: the number of bytes fed, as a number of the counter type; except
that with overflow checks (`dbg`) it panics for a keyed state when the key block and the input together wrap to less than
one block. -/
theorem C42_count_exact (plat : Platform) (calls : List Setter) (p : Params a)
    (hb : (Params.new a plat).build calls = .ok p) (slices : List (List Byte)) (dbg : Bool) :
    ∃ s, slices.foldlM State.update p.toState = .ok s ∧
      s.getCount dbg =
        if dbg = true ∧ (configOf a calls).key ≠ [] ∧ (bb a + slices.flatten.length) % 2 ^ (2 * a.w) < bb a
        then .error .panic
        else .ok (BitVec.ofNat (2 * a.w) slices.flatten.length) := by
  obtain ⟨hr, _⟩ := built_rep hb
  obtain ⟨s, es, r, _⟩ := upd_foldlM (HRel.create hr) slices
  exact ⟨s, es, r.count_exact dbg⟩

example : ∃ p s, (Params.new .b .AVX2).build [.key [1]] = .ok p ∧
    ([[1, 2], List.replicate 300 3] : List (List Byte)).foldlM State.update p.toState = .ok s ∧ s.getCount true = .ok 302 :=
  let ⟨p, e⟩ := C03_nonvacuous (a := .b) .AVX2 [.key [1]] (by decide)
  let ⟨s, h1, h2⟩ := C42_count_exact .AVX2 _ p e [[1, 2], List.replicate 300 3] true
  ⟨p, s, e, h1, (h2.trans (if_neg (by decide +kernel))).trans (congrArg _ (by decide +kernel))⟩

/-- C07. `count` is the number of bytes passed to `update`, as long as that number (plus, in debug builds, the key block)
fits the counter type. Missing: the debug-build panic described by `C42_count_exact`. -/
theorem C07_count_partial (plat : Platform) (calls : List Setter) (p : Params a)
    (hb : (Params.new a plat).build calls = .ok p) (slices : List (List Byte)) (dbg : Bool)
    (hfit : slices.flatten.length + (if dbg = true ∧ (configOf a calls).key ≠ [] then bb a else 0) < 2 ^ (2 * a.w)) :
    ∃ s c, slices.foldlM State.update p.toState = .ok s ∧ s.getCount dbg = .ok c ∧ c.toNat = slices.flatten.length := by
  obtain ⟨s, es, e⟩ := C42_count_exact plat calls p hb slices dbg
  have hlt : slices.flatten.length < 2 ^ (2 * a.w) := by omega
  refine ⟨s, BitVec.ofNat (2 * a.w) slices.flatten.length, es, ?_, ?_⟩
  · rw [e, if_neg]
    rintro ⟨h1, h2, h3⟩
    rw [if_pos ⟨h1, h2⟩] at hfit
    rw [Nat.mod_eq_of_lt (by omega)] at h3
    omega
  · rw [BitVec.toNat_ofNat, Nat.mod_eq_of_lt hlt]

/-- C07 for release builds, in full: for every total, `count` is the number of bytes fed modulo the range of the counter
type. -/
theorem C07_count_release (plat : Platform) (calls : List Setter) (p : Params a)
    (hb : (Params.new a plat).build calls = .ok p) (slices : List (List Byte)) :
    ∃ s c, slices.foldlM State.update p.toState = .ok s ∧ s.getCount false = .ok c ∧
      c.toNat = slices.flatten.length % 2 ^ (2 * a.w) := by
  obtain ⟨s, es, e⟩ := C42_count_exact plat calls p hb slices false
  refine ⟨s, BitVec.ofNat (2 * a.w) slices.flatten.length, es, ?_, BitVec.toNat_ofNat ..⟩
  rw [e, if_neg (by simp)]

example : ∃ s c, ([[1, 2, 3], [4]] : List (List Byte)).foldlM State.update (Params.new .s .Portable).toState = .ok s ∧
    s.getCount false = .ok c ∧ c.toNat = 4 :=
  C07_count_release (a := .s) .Portable [] _ rfl [[1, 2, 3], [4]]

/-- Why C07 is partial: with a key and debug assertions, `count` panics although the number of bytes fed fits the counter. -/
theorem C07_count_debug_counterexample (a : Alg) (plat : Platform) :
    ∃ (p : Params a) (input : List Byte) (s : State a), (Params.new a plat).build [.key [1]] = .ok p ∧
      input.length < 2 ^ (2 * a.w) ∧ p.toState.update input = .ok s ∧ s.getCount true = .error .panic := by
  obtain ⟨p, e⟩ := C03_nonvacuous (a := a) plat [.key [1]] (by cases a <;> decide)
  have hw : bb a < 2 ^ (2 * a.w) := by cases a <;> decide
  have hb : 0 < bb a := by cases a <;> decide
  obtain ⟨s, es, ec⟩ := C42_count_exact plat [.key [1]] p e [List.replicate (2 ^ (2 * a.w) - bb a) 0] true
  refine ⟨p, List.replicate (2 ^ (2 * a.w) - bb a) 0, s, e, ?_, ?_, ?_⟩
  · rw [List.length_replicate]; omega
  · rw [List.foldlM_cons] at es
    cases eu : p.toState.update (List.replicate (2 ^ (2 * a.w) - bb a) 0) with
    | error f => rw [eu] at es; cases es
    | ok s' => rw [eu] at es; exact es
  · rw [ec, if_pos]
    refine ⟨rfl, by simp [configOf, Setter.apply], ?_⟩
    rw [List.flatten_cons, List.flatten_nil, List.append_nil, List.length_replicate]
    have : bb a + (2 ^ (2 * a.w) - bb a) = 2 ^ (2 * a.w) := by omega
    rw [this, Nat.mod_self]; exact hb

example : ∃ s c, ([[1, 2, 3], [4]] : List (List Byte)).foldlM State.update (Params.new .s .Portable).toState = .ok s ∧
    s.getCount true = .ok c ∧ c.toNat = 4 :=
  C07_count_partial (a := .s) .Portable [] _ rfl [[1, 2, 3], [4]] true (by decide)

/-! ## C08, C35 -/

theorem next_onPlatforms {π ρ : Type} (f : π → ρ) (hs : List Hasher) (op : Op π) :
    (op.onPlatforms f).next a hs = op.next a hs := by cases op <;> rfl
theorem answer_onPlatforms {π ρ : Type} (f : π → ρ) (hs : List Hasher) (op : Op π) :
    (op.onPlatforms f).answer a hs = op.answer a hs := by cases op <;> rfl
theorem valid_onPlatforms {π ρ : Type} (f : π → ρ) (dbg : Bool) (hs : List Hasher) (op : Op π) :
    (op.onPlatforms f).Valid a dbg hs = op.Valid a dbg hs := by cases op <;> rfl

theorem answers_onPlatforms {π ρ : Type} (f : π → ρ) (hs : List Hasher) (ops : List (Op π)) :
    answers a hs (ops.map (Op.onPlatforms f)) = answers a hs ops := by
  induction ops generalizing hs with
  | nil => rfl
  | cons op ops ih => simp only [List.map_cons, answers, next_onPlatforms, answer_onPlatforms, ih]

theorem validHistory_onPlatforms {π ρ : Type} (f : π → ρ) (dbg : Bool) (hs : List Hasher) (ops : List (Op π)) :
    ValidHistory a dbg hs (ops.map (Op.onPlatforms f)) = ValidHistory a dbg hs ops := by
  induction ops generalizing hs with
  | nil => rfl
  | cons op ops ih => simp only [List.map_cons, ValidHistory, next_onPlatforms, valid_onPlatforms, ih]

/-- C08. The same history on different machines — `f` and `g` say which implementation each state gets — tells the client
the same, whatever the mixture of implementations. -/
theorem C08_histories {π : Type} (f g : π → Platform) (dbg : Bool) (ops : List (Op π)) (hv : ValidHistory a dbg [] ops) :
    ∃ ss ss' os, execAll dbg ([] : List (State a)) (ops.map (Op.onPlatforms f)) = .ok (ss, os) ∧
      execAll dbg ([] : List (State a)) (ops.map (Op.onPlatforms g)) = .ok (ss', os) := by
  obtain ⟨ss, e⟩ := C33_histories (a := a) dbg (ops.map (Op.onPlatforms f)) (by rw [validHistory_onPlatforms]; exact hv)
  obtain ⟨ss', e'⟩ := C33_histories (a := a) dbg (ops.map (Op.onPlatforms g)) (by rw [validHistory_onPlatforms]; exact hv)
  rw [answers_onPlatforms] at e e'
  exact ⟨ss, ss', _, e, e'⟩

example : ∃ ss ss' os, execAll true ([] : List (State .b)) (sampleHistory.map (Op.onPlatforms fun _ => .Portable)) = .ok (ss, os)
    ∧ execAll true ([] : List (State .b)) (sampleHistory.map (Op.onPlatforms fun _ => .AVX2)) = .ok (ss', os) :=
  C08_histories (fun _ => .Portable) (fun _ => .AVX2) true _ sampleHistory_valid

theorem Rep.withImplementation {c : Config} {p : Params a} (h : Rep a c p) (plat : Platform) :
    Rep a c { p with implementation := plat } :=
  ⟨h.1, h.2, h.3, h.4, h.5, h.6, h.7, h.8, h.9, h.10, h.11, h.12, h.13⟩

/-- C08 for one-shot hashing: the implementation chosen does not influence `Params::hash`. -/
theorem C08_hash (plat plat' : Platform) (calls : List Setter) (p : Params a)
    (hb : (Params.new a plat).build calls = .ok p) (input : List Byte) :
    ({ p with implementation := plat' } : Params a).hash input = p.hash input := by
  obtain ⟨hr, _⟩ := built_rep hb
  rw [hash_eq hr, hash_eq (hr.withImplementation plat')]

example : ({ Params.new .b .AVX2 with implementation := .SSE41 } : Params .b).hash [1, 2] = (Params.new .b .AVX2).hash [1, 2] :=
  C08_hash (a := .b) .AVX2 .SSE41 [] _ rfl [1, 2]

/-- C08 for the block loops: on every platform `compress1_loop` computes the same function, for every chaining value, counter
and flag (`input` non-empty and in whole blocks unless it is the last). -/
theorem C08_compress1 (a : Alg) (plat plat' : Platform) (input : List Byte) (words : Vector (Word a) 8) (count : Count a)
    (lastNode fin : Bool) (stride : Stride) (h : fin = true ∨ (input ≠ [] ∧ input.length % a.bb = 0)) :
    compress1 a plat input words count lastNode fin stride = compress1 a plat' input words count lastNode fin stride := by
  rw [compress1_eq _ _ _ _ _ _ _ _ h, compress1_eq _ _ _ _ _ _ _ _ h]

/-- Two whole blocks in the middle of a message, and an empty last block. -/
example (words : Vector (Word .s) 8) :
    compress1 .s .AVX2 (List.replicate 128 5) words 64 false false .Serial =
      compress1 .s .Portable (List.replicate 128 5) words 64 false false .Serial ∧
    compress1 .s .AVX2 [] words 64 true true .Serial = compress1 .s .Portable [] words 64 true true .Serial :=
  ⟨C08_compress1 .s .AVX2 .Portable _ words 64 false false .Serial (.inr ⟨by decide, by decide +kernel⟩),
    C08_compress1 .s .AVX2 .Portable [] words 64 true true .Serial (.inl rfl)⟩

/-- C35. `benchmarks::force_portable` changes no one-shot hash, and a state made from the forced parameters returns the same
hashes and counts after any updates. -/
theorem C35_force_portable (plat : Platform) (calls : List Setter) (p : Params a)
    (hb : (Params.new a plat).build calls = .ok p) (slices : List (List Byte)) :
    p.forcePortable.hash slices.flatten = p.hash slices.flatten ∧ p.forcePortable.implementation = .Portable ∧
    ∃ s s' h, slices.foldlM State.update p.toState = .ok s ∧ slices.foldlM State.update p.forcePortable.toState = .ok s' ∧
      s.finalize = .ok h ∧ s'.finalize = .ok h ∧ ∀ dbg, s.getCount dbg = s'.getCount dbg := by
  obtain ⟨hr, _⟩ := built_rep hb
  have hr' := hr.withImplementation .Portable
  obtain ⟨s, es, r, _⟩ := upd_foldlM (HRel.create hr) slices
  obtain ⟨s', es', r', _⟩ := upd_foldlM (HRel.create hr') slices
  refine ⟨C08_hash plat .Portable calls p hb _, rfl, s, s', _, es, es', r.finalize, r'.finalize, fun dbg => ?_⟩
  unfold State.getCount
  simp only [r.total, r'.total, r.2.2.2.1, r'.2.2.2.1]

example : ((Params.new .b .AVX2).forcePortable).hash [1, 2] = (Params.new .b .AVX2).hash [1, 2] :=
  (C35_force_portable (a := .b) .AVX2 [] _ rfl [[1, 2]]).1

/-! ## C24 -/

/-- C24. `write` is `update` and reports all bytes as written; `flush` changes nothing. -/
theorem C24_write (s : State a) (buf : List Byte) :
    s.write buf = (s.update buf).map (fun s' => (s', buf.length)) ∧ s.flush = .ok s := by
  refine ⟨?_, rfl⟩
  unfold State.write
  cases s.update buf <;> rfl

theorem writeAll_ok {S : Type} (write : S → List Byte → Res (S × Nat)) (s s' : S) (buf : List Byte)
    (h : write s buf = .ok (s', buf.length)) (hne : buf ≠ []) : writeAll write buf.length s buf = .ok (some s') := by
  cases buf with
  | nil => exact absurd rfl hne
  | cons b bs =>
    simp only [List.length_cons, writeAll]
    rw [h]
    simp only [bind, Except.bind, List.length_cons, Nat.succ_ne_zero, if_false, sliceFrom, Nat.le_refl, if_true]
    rw [List.drop_of_length_le (by simp)]
    cases bs.length <;> rfl

/-- C24, consequence: `io::copy` of any chunks into a state succeeds and hashes their concatenation. -/
theorem C24_io_copy (plat : Platform) (calls : List Setter) (p : Params a)
    (hb : (Params.new a plat).build calls = .ok p) (chunks : List (List Byte)) :
    ∃ s h, ioCopy State.write p.toState chunks = .ok (some s) ∧ s.finalize = .ok h ∧
      h.asBytes = .ok (Spec.hash a (configOf a calls) chunks.flatten) := by
  obtain ⟨hr, _⟩ := built_rep hb
  have key : ∀ (cs : List (List Byte)) (h : Hasher) (s : State a), HRel a h s →
      ∃ s', ioCopy State.write s cs = .ok (some s') ∧ HRel a { h with msg := h.msg ++ cs.flatten } s' := by
    intro cs
    induction cs with
    | nil => intro h s r; exact ⟨s, rfl, by simpa using r⟩
    | cons c cs ih =>
      intro h s r
      by_cases hc : c = []
      · subst hc
        obtain ⟨s', e, r'⟩ := ih h s r
        refine ⟨s', ?_, by simpa using r'⟩
        rw [ioCopy]
        simpa [writeAll, bind, Except.bind] using e
      · obtain ⟨s', e, r'⟩ := ih _ _ (r.feed c)
        refine ⟨s', ?_, by simpa [Hasher.feed] using r'⟩
        rw [ioCopy, writeAll_ok _ s (State.upd s c) c _ hc]
        · simpa [bind, Except.bind] using e
        · rw [(C24_write s c).1, State.update_eq s c r.sane]; rfl
  obtain ⟨s, e, r⟩ := key chunks _ _ (HRel.create hr)
  exact ⟨s, _, e, r.finalize, asBytes_config r.2.2.2.2 _⟩

example : ∃ s h, ioCopy State.write (Params.new .s .SSE41).toState [[1, 2], [], List.replicate 1000 3] = .ok (some s) ∧
    s.finalize = .ok h :=
  let ⟨s, h, h1, h2, _⟩ := C24_io_copy (a := .s) .SSE41 [] _ rfl [[1, 2], [], List.replicate 1000 3]
  ⟨s, h, h1, h2⟩

/-! ## C29 -/

theorem upd_nil (s : State a) (h : s.Sane) : State.upd s [] = s := by
  have h1 := h.buflen
  unfold State.upd State.cbp
  by_cases hp : s.buflen > 0
  · simp only [hp, if_true, List.length_nil, Nat.min_zero, List.drop_nil]
    simp [State.filled]
  · simp [hp]

theorem Reachable.sane {s : State a} (h : Reachable s) : s.Sane := by
  obtain ⟨dbg, ops, ss, os, hv, he, hs⟩ := h
  obtain ⟨ss', e, r⟩ := execAll_refines (a := a) rel_nil dbg ops hv
  rw [he] at e
  simp only [Except.ok.injEq, Prod.mk.injEq] at e
  obtain ⟨rfl, _⟩ := e
  obtain ⟨i, hi, rfl⟩ := List.getElem_of_mem hs
  exact (r.2 i (by rw [← r.1]; exact hi) hi).sane

/-- C29. In every state a client can reach, `update(&[])` leaves the state exactly as it was. -/
theorem C29_empty_update (s : State a) (h : Reachable s) : s.update [] = .ok s := by
  rw [State.update_eq _ _ h.sane, upd_nil _ h.sane]

/-- C29 for batches: a state paired with an empty input comes out of `update_many` exactly as it went in, whatever else is
in the batch. -/
theorem C29_empty_update_many (pairs : List (State a × List Byte)) (hp : ∀ q ∈ pairs, Reachable q.1) :
    ∃ out, updateMany pairs = .ok out ∧ out.length = pairs.length ∧
      ∀ (i : Nat) (s : State a), pairs[i]? = some (s, []) → out[i]? = some s := by
  refine ⟨_, updateMany_eq pairs (fun q hq => (hp q hq).sane), by simp, fun i s hi => ?_⟩
  rw [List.getElem?_map, hi, Option.map_some, upd_nil]
  exact (hp _ (List.mem_of_getElem? hi)).sane

/-- All states of a valid history are reachable. -/
theorem reachable_of_history (dbg : Bool) (ops : List (Op Platform)) (hv : ValidHistory a dbg [] ops) :
    ∃ ss os, execAll dbg ([] : List (State a)) ops = .ok (ss, os) ∧ ss.length = (history a [] ops).length ∧
      ∀ s ∈ ss, Reachable s := by
  obtain ⟨ss, e, r⟩ := execAll_refines (a := a) rel_nil dbg ops hv
  exact ⟨ss, _, e, r.1, fun s hs => ⟨dbg, ops, ss, _, hv, e, hs⟩⟩

/-- There are reachable states, with buffered input, a key, and a last-node flag. -/
example : ∃ ss os, execAll true ([] : List (State .b)) sampleHistory = .ok (ss, os) ∧
    ss.length = (history .b [] sampleHistory).length ∧ ∀ s ∈ ss, Reachable s :=
  reachable_of_history true _ sampleHistory_valid
example : 2 ≤ (history .b [] sampleHistory).length := by decide +kernel

/-! ## C34 -/

theorem getState_ok {S : Type} {ss : List S} {i : Nat} {s : S} (h : getState ss i = .ok s) : ss[i]? = some s := by
  unfold getState at h
  split at h
  · next e => simp only [Except.ok.injEq] at h; rw [e, h]
  · cases h

theorem set_self {S : Type} {ss : List S} {i : Nat} {s : S} (h : ss[i]? = some s) : ss.set i s = ss := by
  obtain ⟨hi, rfl⟩ := List.getElem?_eq_some_iff.1 h
  exact List.set_getElem_self hi

theorem foldl_set_other {S : Type} (jobs : List (Nat × List Byte)) (ss out : List S) (i : Nat)
    (hne : ∀ j ∈ jobs, j.1 ≠ i) :
    ((jobs.zip out).foldl (fun ss p => ss.set p.1.1 p.2) ss)[i]? = ss[i]? := by
  induction jobs generalizing ss out with
  | nil => rfl
  | cons j js ih =>
    cases out with
    | nil => rfl
    | cons t ts =>
      simp only [List.zip_cons_cons, List.foldl_cons]
      rw [ih (ss.set j.1 t) ts (fun j' hj' => hne j' (by simp [hj']))]
      exact List.getElem?_set_ne (hne j (by simp))

/-- C34, frame: an operation that does not name state `i` as its target leaves state `i` exactly as it was. -/
theorem C34_frame (dbg : Bool) (ss ss' : List (State a)) (op : Op Platform) (o : Obs) (i : Nat) (hi : i < ss.length)
    (h : op.exec dbg ss = .ok (ss', o)) (ht : op.targets i = false) : ss'[i]? = ss[i]? := by
  have bindOk : ∀ {α β : Type} {x : Res α} {f : α → Res β} {y : β}, (x >>= f) = .ok y → ∃ v, x = .ok v ∧ f v = .ok y := by
    intro α β x f y h
    cases x with
    | error e => cases h
    | ok v => exact ⟨v, rfl, h⟩
  cases op with
  | create plat calls =>
    simp only [Op.exec] at h
    obtain ⟨p, _, h⟩ := bindOk h
    simp only [Except.ok.injEq, Prod.mk.injEq] at h
    rw [← h.1, List.getElem?_append_left hi]
  | clone j =>
    simp only [Op.exec] at h
    obtain ⟨p, _, h⟩ := bindOk h
    simp only [Except.ok.injEq, Prod.mk.injEq] at h
    rw [← h.1, List.getElem?_append_left hi]
  | update j x =>
    simp only [Op.exec] at h
    obtain ⟨s, _, h⟩ := bindOk h
    obtain ⟨s', _, h⟩ := bindOk h
    simp only [Except.ok.injEq, Prod.mk.injEq] at h
    have hne : j ≠ i := by simpa [Op.targets] using ht
    rw [← h.1, List.getElem?_set_ne hne]
  | write j x =>
    simp only [Op.exec] at h
    obtain ⟨s, _, h⟩ := bindOk h
    obtain ⟨s', _, h⟩ := bindOk h
    simp only [Except.ok.injEq, Prod.mk.injEq] at h
    have hne : j ≠ i := by simpa [Op.targets] using ht
    rw [← h.1, List.getElem?_set_ne hne]
  | flush j =>
    simp only [Op.exec, State.flush] at h
    obtain ⟨s, hs, h⟩ := bindOk h
    simp only [bind, Except.bind, Except.ok.injEq, Prod.mk.injEq] at h
    rw [← h.1, set_self (getState_ok hs)]
  | setLastNode j b =>
    simp only [Op.exec] at h
    obtain ⟨s, _, h⟩ := bindOk h
    simp only [Except.ok.injEq, Prod.mk.injEq] at h
    have hne : j ≠ i := by simpa [Op.targets] using ht
    rw [← h.1, List.getElem?_set_ne hne]
  | finalize j =>
    simp only [Op.exec] at h
    obtain ⟨s, _, h⟩ := bindOk h
    obtain ⟨s', _, h⟩ := bindOk h
    obtain ⟨s'', _, h⟩ := bindOk h
    simp only [Except.ok.injEq, Prod.mk.injEq] at h
    rw [← h.1]
  | count j =>
    simp only [Op.exec] at h
    obtain ⟨s, _, h⟩ := bindOk h
    obtain ⟨s', _, h⟩ := bindOk h
    simp only [Except.ok.injEq, Prod.mk.injEq] at h
    rw [← h.1]
  | updateMany jobs =>
    simp only [Op.exec] at h
    obtain ⟨pairs, _, h⟩ := bindOk h
    obtain ⟨out, _, h⟩ := bindOk h
    simp only [Except.ok.injEq, Prod.mk.injEq] at h
    rw [← h.1]
    have hne : ∀ j ∈ jobs, j.1 ≠ i := by
      intro j hj he
      simp only [Op.targets] at ht
      have : jobs.any (fun x => x.1 == i) = true := List.any_eq_true.2 ⟨j, hj, by simp [he]⟩
      rw [this] at ht; cases ht
    exact foldl_set_other jobs ss out i hne

/-- An update of state 0 does not touch state 1. -/
example : ∃ (ss' : List (State .b)) (o : Obs),
    (Op.update 0 [1, 2, 3] : Op Platform).exec true [State.new .b .AVX2, State.new .b .SSE41] = .ok (ss', o) ∧
    ss'[1]? = some (State.new .b .SSE41) :=
  let r := (rel_nil.append (HRel.create (rep_new .b .AVX2))).append (HRel.create (rep_new .b .SSE41))
  let ⟨ss', e, _⟩ := exec_refines r true (.update 0 [1, 2, 3]) (by decide)
  ⟨ss', _, e, C34_frame true [State.new .b .AVX2, State.new .b .SSE41] ss' (.update 0 [1, 2, 3]) _ 1 (by decide) e rfl⟩

/-- C34. A clone starts as an exact copy at a new place, and no history that does not name one of the two changes it: whatever
is done to the original leaves the clone alone, and conversely. -/
theorem C34_clones_independent (dbg : Bool) (ss ss1 ss2 : List (State a)) (i k : Nat) (o : Obs) (ops : List (Op Platform))
    (os : List Obs) (hc : (Op.clone i : Op Platform).exec dbg ss = .ok (ss1, o)) (hk : k < ss1.length)
    (h : execAll dbg ss1 ops = .ok (ss2, os)) (ht : ∀ op ∈ ops, op.targets k = false) :
    (∃ s, ss[i]? = some s ∧ ss1 = ss ++ [s]) ∧ ss2[k]? = ss1[k]? := by
  constructor
  · simp only [Op.exec, bind, Except.bind] at hc
    cases e : getState ss i with
    | error f => rw [e] at hc; cases hc
    | ok s =>
      rw [e] at hc
      simp only [Except.ok.injEq, Prod.mk.injEq] at hc
      exact ⟨s, getState_ok e, hc.1.symm⟩
  · clear hc
    induction ops generalizing ss1 os with
    | nil =>
      simp only [execAll, Except.ok.injEq, Prod.mk.injEq] at h
      rw [h.1]
    | cons op ops ih =>
      simp only [execAll, bind, Except.bind] at h
      cases e : op.exec dbg ss1 with
      | error f => rw [e] at h; cases h
      | ok r =>
        obtain ⟨s1, o1⟩ := r
        rw [e] at h
        simp only at h
        cases e2 : execAll dbg s1 ops with
        | error f => rw [e2] at h; cases h
        | ok r2 =>
          obtain ⟨s2, os2⟩ := r2
          rw [e2] at h
          simp only [Except.ok.injEq, Prod.mk.injEq] at h
          have hf := C34_frame dbg ss1 s1 op o1 k hk e (ht op (by simp))
          have hk' : k < s1.length := by
            have := (List.getElem?_eq_some_iff (l := s1) (i := k)).1 (hf.trans (List.getElem?_eq_getElem hk))
            exact this.1
          rw [← hf]
          exact ih s1 os2 hk' (by rw [e2, ← h.1]) (fun op' hop' => ht op' (by simp [hop']))

/-- State 1 is a clone of state 0; everything that follows is aimed at state 0. -/
example : ∃ (ss1 ss2 : List (State .b)) (o : Obs) (os : List Obs),
    (Op.clone 0 : Op Platform).exec true [(Params.new .b .AVX2).toState] = .ok (ss1, o) ∧
    execAll true ss1 [.update 0 [1, 2], .updateMany [(0, List.replicate 300 7)], .finalize 1, .setLastNode 0 true] =
      .ok (ss2, os) ∧ ss2[1]? = ss1[1]? := by
  have r0 := HRel.create (rep_new .b .AVX2)
  have r1 := (rel_nil.append r0).append r0
  obtain ⟨ss2, e, _⟩ := execAll_refines r1 true ([.update 0 [1, 2],
    .updateMany [(0, List.replicate 300 7)], .finalize 1, .setLastNode 0 true] : List (Op Platform)) (by decide +kernel)
  exact ⟨_, ss2, _, _, rfl, e, (C34_clones_independent true [_] _ ss2 0 1 _ _ _ rfl (by decide) e (by decide)).2⟩

end Blake2
