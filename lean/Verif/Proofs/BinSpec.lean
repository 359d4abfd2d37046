import Verif.Model.Bin
import Verif.Properties.Output
import Verif.Properties.Tree
/-! # The command line tool -/
namespace Blake2.Bin
open Spec Cli

variable {a : Alg}

/-- Serial parameters of either algorithm. -/
def mkS : (a : Alg) → Blake2.Params a → Params
  | .b, p => .Blake2b p
  | .s, p => .Blake2s p

/-- Tree parameters of either algorithm. -/
def mkT : (a : Alg) → PParams a → Params
  | .b, p => .Blake2bp p
  | .s, p => .Blake2sp p

/-- A step of `make_params` that meets the problem `pr`, if any, and otherwise gives parameters satisfying `Q`. -/
def Step (pr : Option Problem) (x : Cmd Params) (Q : Params → Prop) : Prop :=
  match pr with
  | none => ∃ p, x = pure p ∧ Q p
  | some (.message m) => x = bail m
  | some .panic => x = ExceptT.mk (.error .panic)

theorem Step.bind {pr pr' : Option Problem} {x : Cmd Params} {f : Params → Cmd Params} {Q Q' : Params → Prop}
    (h : Step pr x Q) (h' : ∀ p, Q p → Step pr' (f p) Q') : Step (pr.or pr') (x >>= f) Q' := by
  match pr, h with
  | none, h =>
    obtain ⟨p, rfl, hq⟩ := h
    simpa using h' p hq
  | some (.message m), h =>
    simp only [Step] at h
    rw [h]; rfl
  | some .panic, h =>
    simp only [Step] at h
    rw [h]; rfl

theorem step_none {x : Params} {Q : Params → Prop} (h : Q x) : Step none (pure x) Q := ⟨x, rfl, h⟩

/-- The serial parameters with configuration `c`. -/
def QS (a : Alg) (c : Config) (p : Params) : Prop := ∃ q : Blake2.Params a, p = mkS a q ∧ Rep a c q

/-- The tree parameters with configuration `c`. -/
def QT (a : Alg) (c : Config) (p : Params) : Prop := ∃ q : PParams a, p = mkT a q ∧ PRep a c.digestLength c.key q

/-- A step that is one builder call. -/
theorem step_setter {c : Config} {q : Blake2.Params a} (h : Rep a c q) (s : Setter) :
    Step (if s.InRange a then none else some .panic) (call (s.run q) >>= fun p => pure (mkS a p)) (QS a (s.apply c)) := by
  by_cases hr : s.InRange a
  · obtain ⟨p', e, r, _⟩ := rep_run h s hr
    rw [if_pos hr, e]
    exact ⟨mkS a p', rfl, p', rfl, r⟩
  · rw [if_neg hr, run_panics q s hr]
    rfl

theorem step_psetter {c : PConfig} {q : PParams a} (h : PRep a c.hashLength c.key q) (s : PSetter) :
    Step (if s.InRange a then none else some .panic) (call (s.run q) >>= fun p => pure (mkT a p))
      (fun p => ∃ q, p = mkT a q ∧ PRep a (s.apply c).hashLength (s.apply c).key q) := by
  by_cases hr : s.InRange a
  · obtain ⟨p', e, r, _⟩ := prep_run h s hr
    rw [if_pos hr, e]
    exact ⟨mkT a p', rfl, p', rfl, r⟩
  · rw [if_neg hr, prun_panics q s hr]
    rfl

theorem QS.mono {c c' : Config} {p : Params} (h : QS a c p) (e : c = c') : QS a c' p := e ▸ h

section
variable {o : Opt} {w : World} {c : Config} {p : Params}

/-! ## Serial -/

theorem step_length (ha : o.alg = a) (h : QS a c p) :
    Step (o.length.bind fun n => if 1 ≤ n ∧ n ≤ maxOut o.alg then none else some .panic) (setLength o p)
      (QS a { c with digestLength := o.length.getD c.digestLength }) := by
  obtain ⟨q, rfl, hr⟩ := h
  rw [ha]
  unfold setLength
  cases o.length with
  | none => exact step_none ⟨q, rfl, hr⟩
  | some n =>
    have := step_setter hr (.hashLength n)
    cases a <;> exact this

theorem step_key (ha : o.alg = a) (h : QS a c p) :
    Step (hexOption w o.key fun k => if k.length ≤ maxOut o.alg then none else some .panic) (setKey w o p)
      (QS a { c with key := (o.key.bind unhex).getD c.key }) := by
  obtain ⟨q, rfl, hr⟩ := h
  rw [ha]
  unfold setKey hexOption hexDecode
  cases o.key with
  | none => exact step_none ⟨q, rfl, hr⟩
  | some t =>
    simp only [Option.bind_some]
    cases unhex t with
    | none => rfl
    | some k =>
      have := step_setter hr (.key k)
      cases a <;> exact this

theorem step_salt (ha : o.alg = a) (hp : o.parallel = false) (h : QS a c p) :
    Step (hexOption w o.salt fun s => o.serialOnly "salt" (some s) (fun s => s.length ≤ saltBytes o.alg)) (setSalt w o p)
      (QS a { c with salt := (o.salt.bind unhex).getD c.salt }) := by
  obtain ⟨q, rfl, hr⟩ := h
  rw [ha]
  unfold setSalt hexOption hexDecode
  cases o.salt with
  | none => exact step_none ⟨q, rfl, hr⟩
  | some t =>
    simp only [Option.bind_some]
    cases unhex t with
    | none => rfl
    | some k =>
      have := step_setter hr (.salt k)
      simp only [Opt.serialOnly, hp, Option.bind_some, Bool.false_eq_true, if_false]
      cases a <;> exact this

theorem step_personal (ha : o.alg = a) (hp : o.parallel = false) (h : QS a c p) :
    Step (hexOption w o.personal fun s => o.serialOnly "personal" (some s) (fun s => s.length ≤ saltBytes o.alg)) (setPersonal w o p)
      (QS a { c with personal := (o.personal.bind unhex).getD c.personal }) := by
  obtain ⟨q, rfl, hr⟩ := h
  rw [ha]
  unfold setPersonal hexOption hexDecode
  cases o.personal with
  | none => exact step_none ⟨q, rfl, hr⟩
  | some t =>
    simp only [Option.bind_some]
    cases unhex t with
    | none => rfl
    | some k =>
      have := step_setter hr (.personal k)
      simp only [Opt.serialOnly, hp, Option.bind_some, Bool.false_eq_true, if_false]
      cases a <;> exact this

theorem step_fanout (ha : o.alg = a) (hp : o.parallel = false) (h : QS a c p) :
    Step (o.serialOnly "fanout" o.fanout (fun _ => True)) (setFanout o p) (QS a { c with fanout := (o.fanout.map BitVec.toNat).getD c.fanout }) := by
  obtain ⟨q, rfl, hr⟩ := h
  clear ha
  unfold setFanout Opt.serialOnly
  cases o.fanout with
  | none => exact step_none ⟨q, rfl, hr⟩
  | some n =>
    have := step_setter hr (.fanout n)
    simp only [hp, Option.bind_some, Bool.false_eq_true, if_false]
    cases a <;> exact this

theorem step_max_depth (ha : o.alg = a) (hp : o.parallel = false) (h : QS a c p) :
    Step (o.serialOnly "max-depth" o.maxDepth (fun _ => True)) (setMaxDepth o p) (QS a { c with maxDepth := (o.maxDepth.map BitVec.toNat).getD c.maxDepth }) := by
  obtain ⟨q, rfl, hr⟩ := h
  clear ha
  unfold setMaxDepth Opt.serialOnly
  cases o.maxDepth with
  | none => exact step_none ⟨q, rfl, hr⟩
  | some n =>
    have := step_setter hr (.maxDepth n)
    simp only [hp, Option.bind_some, Bool.false_eq_true, if_false]
    cases a <;> exact this

theorem step_max_leaf_length (ha : o.alg = a) (hp : o.parallel = false) (h : QS a c p) :
    Step (o.serialOnly "max-leaf-length" o.maxLeafLength (fun _ => True)) (setMaxLeafLength o p) (QS a { c with leafLength := (o.maxLeafLength.map BitVec.toNat).getD c.leafLength }) := by
  obtain ⟨q, rfl, hr⟩ := h
  clear ha
  unfold setMaxLeafLength Opt.serialOnly
  cases o.maxLeafLength with
  | none => exact step_none ⟨q, rfl, hr⟩
  | some n =>
    have := step_setter hr (.maxLeafLength n)
    simp only [hp, Option.bind_some, Bool.false_eq_true, if_false]
    cases a <;> exact this

theorem step_node_offset (ha : o.alg = a) (hp : o.parallel = false) (h : QS a c p) :
    Step (o.serialOnly "node-offset" o.nodeOffset (fun n => n.toNat < 2 ^ (8 * nodeOffsetBytes o.alg))) (setNodeOffset o p) (QS a { c with nodeOffset := (o.nodeOffset.map BitVec.toNat).getD c.nodeOffset }) := by
  obtain ⟨q, rfl, hr⟩ := h
  rw [ha]
  unfold setNodeOffset Opt.serialOnly
  cases o.nodeOffset with
  | none => exact step_none ⟨q, rfl, hr⟩
  | some n =>
    have := step_setter hr (.nodeOffset n)
    simp only [hp, Option.bind_some, Bool.false_eq_true, if_false]
    cases a <;> exact this

theorem step_node_depth (ha : o.alg = a) (hp : o.parallel = false) (h : QS a c p) :
    Step (o.serialOnly "node-depth" o.nodeDepth (fun _ => True)) (setNodeDepth o p) (QS a { c with nodeDepth := (o.nodeDepth.map BitVec.toNat).getD c.nodeDepth }) := by
  obtain ⟨q, rfl, hr⟩ := h
  clear ha
  unfold setNodeDepth Opt.serialOnly
  cases o.nodeDepth with
  | none => exact step_none ⟨q, rfl, hr⟩
  | some n =>
    have := step_setter hr (.nodeDepth n)
    simp only [hp, Option.bind_some, Bool.false_eq_true, if_false]
    cases a <;> exact this

theorem step_inner_hash_length (ha : o.alg = a) (hp : o.parallel = false) (h : QS a c p) :
    Step (o.serialOnly "inner-hash-length" o.innerHashLength (fun n => n ≤ maxOut o.alg)) (setInnerHashLength o p) (QS a { c with innerLength := o.innerHashLength.getD c.innerLength }) := by
  obtain ⟨q, rfl, hr⟩ := h
  rw [ha]
  unfold setInnerHashLength Opt.serialOnly
  cases o.innerHashLength with
  | none => exact step_none ⟨q, rfl, hr⟩
  | some n =>
    have := step_setter hr (.innerHashLength n)
    simp only [hp, Option.bind_some, Bool.false_eq_true, if_false]
    cases a <;> exact this

theorem step_last_node (hp : o.parallel = false) (h : QS a c p) :
    Step (o.serialOnly "last-node" (if o.lastNode then some () else none) (fun _ => True)) (setLastNode o p)
      (QS a { c with lastNode := o.lastNode || c.lastNode }) := by
  obtain ⟨q, rfl, hr⟩ := h
  unfold setLastNode Opt.serialOnly
  cases o.lastNode with
  | false => exact step_none ⟨q, rfl, hr⟩
  | true =>
    have := step_setter hr (.lastNode true)
    simp only [hp, Option.bind_some, Bool.false_eq_true, if_false, if_true]
    cases a <;> exact this

/-! ## Tree -/

theorem tstep_length (ha : o.alg = a) (h : QT a c p) :
    Step (o.length.bind fun n => if 1 ≤ n ∧ n ≤ maxOut o.alg then none else some .panic) (setLength o p)
      (QT a { c with digestLength := o.length.getD c.digestLength }) := by
  obtain ⟨q, rfl, hr⟩ := h
  rw [ha]
  unfold setLength
  cases o.length with
  | none => exact step_none ⟨q, rfl, hr⟩
  | some n =>
    have := step_psetter (c := ⟨c.digestLength, c.key⟩) hr (.hashLength n)
    cases a <;> exact this

theorem tstep_key (ha : o.alg = a) (h : QT a c p) :
    Step (hexOption w o.key fun k => if k.length ≤ maxOut o.alg then none else some .panic) (setKey w o p)
      (QT a { c with key := (o.key.bind unhex).getD c.key }) := by
  obtain ⟨q, rfl, hr⟩ := h
  rw [ha]
  unfold setKey hexOption hexDecode
  cases o.key with
  | none => exact step_none ⟨q, rfl, hr⟩
  | some t =>
    simp only [Option.bind_some]
    cases unhex t with
    | none => rfl
    | some k =>
      have := step_psetter (c := ⟨c.digestLength, c.key⟩) hr (.key k)
      cases a <;> exact this

theorem tstep_salt (hp : o.parallel = true) (h : QT a c p) :
    Step (hexOption w o.salt fun s => o.serialOnly "salt" (some s) (fun s => s.length ≤ saltBytes o.alg)) (setSalt w o p)
      (QT a c) := by
  obtain ⟨q, rfl, hr⟩ := h
  unfold setSalt hexOption hexDecode
  cases o.salt with
  | none => exact step_none ⟨q, rfl, hr⟩
  | some t =>
    simp only [Option.bind_some]
    cases unhex t with
    | none => rfl
    | some k =>
      simp only [Opt.serialOnly, hp, Option.bind_some, if_true]
      cases a <;> rfl

theorem tstep_personal (hp : o.parallel = true) (h : QT a c p) :
    Step (hexOption w o.personal fun s => o.serialOnly "personal" (some s) (fun s => s.length ≤ saltBytes o.alg)) (setPersonal w o p)
      (QT a c) := by
  obtain ⟨q, rfl, hr⟩ := h
  unfold setPersonal hexOption hexDecode
  cases o.personal with
  | none => exact step_none ⟨q, rfl, hr⟩
  | some t =>
    simp only [Option.bind_some]
    cases unhex t with
    | none => rfl
    | some k =>
      simp only [Opt.serialOnly, hp, Option.bind_some, if_true]
      cases a <;> rfl

theorem tstep_fanout (hp : o.parallel = true) (h : QT a c p) :
    Step (o.serialOnly "fanout" o.fanout (fun _ => True)) (setFanout o p) (QT a c) := by
  obtain ⟨q, rfl, hr⟩ := h
  unfold setFanout Opt.serialOnly
  cases o.fanout with
  | none => exact step_none ⟨q, rfl, hr⟩
  | some n =>
    simp only [hp, Option.bind_some, if_true]
    cases a <;> rfl

theorem tstep_max_depth (hp : o.parallel = true) (h : QT a c p) :
    Step (o.serialOnly "max-depth" o.maxDepth (fun _ => True)) (setMaxDepth o p) (QT a c) := by
  obtain ⟨q, rfl, hr⟩ := h
  unfold setMaxDepth Opt.serialOnly
  cases o.maxDepth with
  | none => exact step_none ⟨q, rfl, hr⟩
  | some n =>
    simp only [hp, Option.bind_some, if_true]
    cases a <;> rfl

theorem tstep_max_leaf_length (hp : o.parallel = true) (h : QT a c p) :
    Step (o.serialOnly "max-leaf-length" o.maxLeafLength (fun _ => True)) (setMaxLeafLength o p) (QT a c) := by
  obtain ⟨q, rfl, hr⟩ := h
  unfold setMaxLeafLength Opt.serialOnly
  cases o.maxLeafLength with
  | none => exact step_none ⟨q, rfl, hr⟩
  | some n =>
    simp only [hp, Option.bind_some, if_true]
    cases a <;> rfl

theorem tstep_node_offset (hp : o.parallel = true) (h : QT a c p) :
    Step (o.serialOnly "node-offset" o.nodeOffset (fun n => n.toNat < 2 ^ (8 * nodeOffsetBytes o.alg))) (setNodeOffset o p) (QT a c) := by
  obtain ⟨q, rfl, hr⟩ := h
  unfold setNodeOffset Opt.serialOnly
  cases o.nodeOffset with
  | none => exact step_none ⟨q, rfl, hr⟩
  | some n =>
    simp only [hp, Option.bind_some, if_true]
    cases a <;> rfl

theorem tstep_node_depth (hp : o.parallel = true) (h : QT a c p) :
    Step (o.serialOnly "node-depth" o.nodeDepth (fun _ => True)) (setNodeDepth o p) (QT a c) := by
  obtain ⟨q, rfl, hr⟩ := h
  unfold setNodeDepth Opt.serialOnly
  cases o.nodeDepth with
  | none => exact step_none ⟨q, rfl, hr⟩
  | some n =>
    simp only [hp, Option.bind_some, if_true]
    cases a <;> rfl

theorem tstep_inner_hash_length (hp : o.parallel = true) (h : QT a c p) :
    Step (o.serialOnly "inner-hash-length" o.innerHashLength (fun n => n ≤ maxOut o.alg)) (setInnerHashLength o p) (QT a c) := by
  obtain ⟨q, rfl, hr⟩ := h
  unfold setInnerHashLength Opt.serialOnly
  cases o.innerHashLength with
  | none => exact step_none ⟨q, rfl, hr⟩
  | some n =>
    simp only [hp, Option.bind_some, if_true]
    cases a <;> rfl

theorem tstep_last_node (hp : o.parallel = true) (h : QT a c p) :
    Step (o.serialOnly "last-node" (if o.lastNode then some () else none) (fun _ => True)) (setLastNode o p) (QT a c) := by
  obtain ⟨q, rfl, hr⟩ := h
  unfold setLastNode Opt.serialOnly
  cases o.lastNode with
  | false => exact step_none ⟨q, rfl, hr⟩
  | true =>
    simp only [hp, Option.bind_some, if_true]
    cases a <;> rfl

end

theorem newParams_serial (e : Machine) (o : Opt) (hp : o.parallel = false) :
    QS o.alg (Config.default o.alg) (newParams e o) := by
  refine ⟨Blake2.Params.new _ (detect e), ?_, rep_new _ _⟩
  unfold newParams Opt.alg
  cases o.small <;> simp [hp, mkS]

theorem newParams_tree (e : Machine) (o : Opt) (hp : o.parallel = true) :
    QT o.alg (Config.default o.alg) (newParams e o) := by
  refine ⟨PParams.new _ (detect e), ?_, prep_new _ _⟩
  unfold newParams Opt.alg
  cases o.small <;> simp [hp, mkT]

theorem findSome_cons {α : Type} (x y : Option α) (l : List (Option α)) :
    (x :: y :: l).findSome? id = x.or ((y :: l).findSome? id) := by cases x <;> rfl

theorem findSome_one {α : Type} (x : Option α) : [x].findSome? id = x := by cases x <;> rfl

theorem Step.mono {pr : Option Problem} {x : Cmd Params} {Q Q' : Params → Prop} (h : Step pr x Q) (hq : ∀ p, Q p → Q' p) :
    Step pr x Q' := by
  match pr, h with
  | none, h =>
    obtain ⟨p, e, hp⟩ := h
    exact ⟨p, e, hq p hp⟩
  | some (.message m), h => exact h
  | some .panic, h => exact h

/-- What `make_params` does. -/
theorem makeParams_step (e : Machine) (w : World) (o : Opt) :
    Step (o.problem w) (makeParams e w o) (if o.parallel then QT o.alg o.config else QS o.alg o.config) := by
  unfold makeParams Opt.problem Opt.checks
  by_cases hbs : (o.big && o.small) = true
  · simp only [hbs, if_true, List.findSome?_cons, id]
    rfl
  rw [if_neg hbs, if_neg hbs, findSome_cons, Option.none_or]
  simp only [findSome_cons, findSome_one]
  cases hp : o.parallel with
  | false =>
    have := Step.bind (step_length rfl (newParams_serial e o hp)) fun p h =>
      Step.bind (step_key (w := w) rfl h) fun p h =>
      Step.bind (step_salt (w := w) rfl hp h) fun p h =>
      Step.bind (step_personal (w := w) rfl hp h) fun p h =>
      Step.bind (step_fanout rfl hp h) fun p h =>
      Step.bind (step_max_depth rfl hp h) fun p h =>
      Step.bind (step_max_leaf_length rfl hp h) fun p h =>
      Step.bind (step_node_offset rfl hp h) fun p h =>
      Step.bind (step_node_depth rfl hp h) fun p h =>
      Step.bind (step_inner_hash_length rfl hp h) fun p h => step_last_node hp h
    refine this.mono fun p h => h.mono ?_
    simp only [Opt.config, Config.default, bytesOf, Bool.or_false]
  | true =>
    have := Step.bind (tstep_length rfl (newParams_tree e o hp)) fun p h =>
      Step.bind (tstep_key (w := w) rfl h) fun p h =>
      Step.bind (tstep_salt (w := w) hp h) fun p h =>
      Step.bind (tstep_personal (w := w) hp h) fun p h =>
      Step.bind (tstep_fanout hp h) fun p h =>
      Step.bind (tstep_max_depth hp h) fun p h =>
      Step.bind (tstep_max_leaf_length hp h) fun p h =>
      Step.bind (tstep_node_offset hp h) fun p h =>
      Step.bind (tstep_node_depth hp h) fun p h =>
      Step.bind (tstep_inner_hash_length hp h) fun p h => tstep_last_node hp h
    exact this

/-! ## Hashing -/

/-- Parameters that hash as `o` asks. -/
def PGood (o : Opt) (p : Params) : Prop := if o.parallel then QT o.alg o.config p else QS o.alg o.config p

/-- Serial states of either algorithm. -/
def mkSS : (a : Alg) → Blake2.State a → State
  | .b, s => .Blake2b s
  | .s, s => .Blake2s s

/-- Tree states of either algorithm. -/
def mkST : (a : Alg) → PState a → State
  | .b, s => .Blake2bp s
  | .s, s => .Blake2sp s

/-- A state that hashes as `o` asks and has absorbed `msg`. -/
def SGood (o : Opt) (msg : List Byte) (s : State) : Prop :=
  if o.parallel then
    ∃ t, s = mkST o.alg t ∧ PHRel o.alg { config := ⟨o.config.digestLength, o.config.key⟩, msg := msg } t
  else ∃ t, s = mkSS o.alg t ∧ HRel o.alg { config := o.config, msg := msg } t

theorem toState_good {o : Opt} {p : Params} (h : PGood o p) : ∃ s, p.toState = .ok s ∧ SGood o [] s := by
  unfold PGood at h
  unfold SGood
  cases hp : o.parallel with
  | false =>
    simp only [hp, Bool.false_eq_true, if_false] at h ⊢
    obtain ⟨q, rfl, hr⟩ := h
    refine ⟨mkSS _ q.toState, ?_, _, rfl, HRel.create hr⟩
    generalize o.alg = a at q
    cases a <;> rfl
  | true =>
    simp only [hp, if_true] at h ⊢
    obtain ⟨q, rfl, hr⟩ := h
    obtain ⟨s, e, hs⟩ := PHRel.create (c := ⟨o.config.digestLength, o.config.key⟩) hr
    refine ⟨mkST _ s, ?_, _, rfl, hs⟩
    revert q s
    generalize o.alg = a
    intro q _ s e _
    cases a <;> simp only [mkT, Params.toState, e, bind, Except.bind, mkST]

theorem update_good {o : Opt} {m : List Byte} {s : State} (h : SGood o m s) (x : List Byte) :
    ∃ s', s.update x = .ok s' ∧ SGood o (m ++ x) s' := by
  unfold SGood at h ⊢
  cases hp : o.parallel with
  | false =>
    simp only [hp, Bool.false_eq_true, if_false] at h ⊢
    obtain ⟨t, rfl, hr⟩ := h
    refine ⟨mkSS _ (Blake2.State.upd t x), ?_, _, rfl, hr.feed x⟩
    have e := Blake2.State.update_eq t x hr.sane
    clear hr
    revert t
    generalize o.alg = a
    intro t e
    cases a <;> simp only [mkSS, State.update, e, bind, Except.bind]
  | true =>
    simp only [hp, if_true] at h ⊢
    obtain ⟨t, rfl, hr⟩ := h
    obtain ⟨t', e, hr', -⟩ := hr.update x
    refine ⟨mkST _ t', ?_, _, rfl, hr'⟩
    clear hr hr'
    revert t t'
    generalize o.alg = a
    intro t t' e
    cases a <;> simp only [mkST, State.update, e, bind, Except.bind]

theorem finalize_good {o : Opt} {m : List Byte} {s : State} (h : SGood o m s) :
    s.finalize = .ok (hexOf (o.digest m)) := by
  unfold SGood at h
  unfold Opt.digest
  cases hp : o.parallel with
  | false =>
    simp only [hp, Bool.false_eq_true, if_false] at h ⊢
    obtain ⟨t, rfl, hr⟩ := h
    have e := hr.finalize
    have e' := asBytes_config hr.2.2.2.2 m
    have hl : (hash o.alg o.config m).length ≤ (o.alg).outbytes := by
      rw [Spec.hash, List.length_take]
      have := hr.2.2.2.2.2.1
      rw [maxOut_eq] at this
      exact Nat.le_trans (Nat.min_le_left _ _) this
    have e'' := bytesToHex_eq _ hl
    clear hr hl
    revert t
    generalize hc : o.config = c at *
    clear hc
    generalize o.alg = a at *
    intro t e
    cases a <;> simp only [mkSS, State.finalize, e, bind, Except.bind, Hash.toHex, e', e'']
  | true =>
    simp only [hp, if_true] at h ⊢
    obtain ⟨t, rfl, hr⟩ := h
    have e := hr.finalize
    have e' := asBytes_pconfig (key := o.config.key) hr.2.2.2.2.1 m
    have hl : (hashP o.alg o.config.digestLength o.config.key m).length ≤ (o.alg).outbytes := by
      rw [← treeFull_take, List.length_take]
      have := hr.2.2.2.2.1
      rw [maxOut_eq] at this
      exact Nat.le_trans (Nat.min_le_left _ _) this
    have e'' := bytesToHex_eq _ hl
    clear hr hl
    revert t
    generalize hc : o.config = c at *
    clear hc
    generalize o.alg = a at *
    intro t e
    cases a <;> simp only [mkST, State.finalize, e, bind, Except.bind, Hash.toHex, e', e'']

theorem readLoop_good {o : Opt} (reads : List ReadResult) (hf : ReadsFit reads) (buf : List Byte) (hb : buf.length = 32768)
    {m : List Byte} {s : State} (h : SGood o m s) :
    match readOutcome reads with
    | none => readLoop reads buf s = .error .diverge
    | some (.error e) => readLoop reads buf s = .ok (.error e)
    | some (.ok d) => ∃ s', readLoop reads buf s = .ok (.ok s') ∧ SGood o (m ++ d) s' := by
  induction reads generalizing buf m s with
  | nil => rfl
  | cons r rest ih =>
    have hf' : ReadsFit rest := fun r hr => hf r (by simp [hr])
    cases r with
    | interrupted => exact ih hf' buf hb h
    | error e => rfl
    | ok bytes =>
      have hlen := hf _ (by simp) bytes rfl
      cases bytes with
      | nil => exact ⟨s, rfl, by simpa using h⟩
      | cons x xs =>
        obtain ⟨s', e, hs'⟩ := update_good h (x :: xs)
        have hbuf : ((x :: xs).take buf.length ++ buf.drop (x :: xs).length).length = 32768 := by
          simp only [List.length_append, List.length_take, List.length_drop]; omega
        have hchunk : sliceTo ((x :: xs).take buf.length ++ buf.drop (x :: xs).length) (x :: xs).length = .ok (x :: xs) := by
          rw [sliceTo, if_pos (by omega), List.take_of_length_le (l := x :: xs) (by omega), List.take_left]
        have hstep : readLoop (.ok (x :: xs) :: rest) buf s =
            readLoop rest ((x :: xs).take buf.length ++ buf.drop (x :: xs).length) s' := by
          rw [readLoop]
          simp only [hchunk, e, bind, Except.bind]
          rfl
        have := ih hf' _ hbuf hs'
        rw [hstep, readOutcome]
        cases ho : readOutcome rest with
        | none => rw [ho] at this; exact this
        | some q =>
          rw [ho] at this
          cases q with
          | error e => exact this
          | ok d => simpa [Except.map] using this
        simp

/-- `read_write_all` and `finalize`. -/
theorem readWriteAll_good {o : Opt} (reads : List ReadResult) (hf : ReadsFit reads) {s : State} (h : SGood o [] s) :
    (do
      let state ← (ExceptT.mk (readWriteAll reads s) : Cmd State)
      call state.finalize).run =
    match readOutcome reads with
      | none => .error .diverge
      | some (.error e) => .ok (.error e)
      | some (.ok d) => .ok (.ok (hexOf (o.digest d))) := by
  have := readLoop_good reads hf (List.replicate 32768 0) List.length_replicate h
  unfold readWriteAll
  cases ho : readOutcome reads with
  | none => rw [ho] at this; simp only at this; rw [this]; rfl
  | some q =>
    rw [ho] at this
    cases q with
    | error e => simp only at this; rw [this]; rfl
    | ok d =>
      obtain ⟨s', e, hs'⟩ := this
      have hf := finalize_good hs'
      rw [e]
      show ((call s'.finalize).run : Res (Except String (List Char))) = _
      rw [hf]; rfl

theorem hashFile_good {o : Opt} {p : Params} (h : PGood o p) (w : World) (f : OsFile) (hf : ReadsFit f.reads) :
    (hashFile w o p f).run = match f.content w o.mmap with
      | none => .error .diverge
      | some (.error e) => .ok (.error e)
      | some (.ok d) => .ok (.ok (hexOf (o.digest d))) := by
  obtain ⟨s, e, hs⟩ := toState_good h
  unfold hashFile OsFile.content
  rw [e]
  cases f.openError with
  | some m => rfl
  | none =>
    cases o.mmap with
    | false => exact readWriteAll_good f.reads hf hs
    | true =>
      unfold mmapFile
      cases f.metadata with
      | error m => rfl
      | ok len =>
        simp only [if_true]
        have h1 := Nat.one_le_two_pow (n := w.ptrBits - 1)
        by_cases hl : 2 ^ (w.ptrBits - 1) ≤ len
        · rw [if_pos hl]
          simp only [bind, Except.bind]
          rw [if_pos (by omega)]
          rfl
        · have h2 : 2 ^ (w.ptrBits - 1) ≤ 2 ^ w.ptrBits := Nat.pow_le_pow_right (by decide) (Nat.sub_le _ _)
          rw [if_neg hl]
          simp only [bind, Except.bind]
          rw [if_neg (by omega), Nat.mod_eq_of_lt (by omega)]
          cases f.map len with
          | error m => rfl
          | ok d =>
            obtain ⟨s', e', hs'⟩ := update_good hs d
            rw [List.nil_append] at hs'
            show (call (s.update d) >>= fun state => call state.finalize).run = _
            rw [e']
            show (call s'.finalize).run = _
            rw [finalize_good hs']
            rfl

theorem hashStdin_good {o : Opt} {p : Params} (h : PGood o p) (stdin : List ReadResult) (hf : ReadsFit stdin) :
    (hashStdin o p stdin).run =
      if o.mmap then .ok (.error "--mmap not supported for stdin")
      else match readOutcome stdin with
        | none => .error .diverge
        | some (.error e) => .ok (.error e)
        | some (.ok d) => .ok (.ok (hexOf (o.digest d))) := by
  obtain ⟨s, e, hs⟩ := toState_good h
  unfold hashStdin
  cases o.mmap with
  | true => rfl
  | false =>
    rw [e]
    exact readWriteAll_good stdin hf hs

end Blake2.Bin
