import Verif.SecretSpec
import Verif.Model.LeakWorld
import Verif.Proofs.LeakErase
import Verif.Proofs.LeakMany
import Verif.Proofs.LeakFeature
/-! # Programs over the whole API: what they reveal -/
namespace Blake2
open Spec

variable {a : Alg}

/-! ## Forgetting the log gives the program of the model -/

theorem asArrayL_erase (dbg : Bool) (h : Hash a) : (h.asArrayL dbg).erase = h.asArray dbg := by
  simp only [Hash.asArrayL, Hash.asArray, Leaky.erase_branch, Leaky.erase_pure, Leaky.erase_fault]

theorem revealText_erase (t : String) : (revealText t).erase = .ok () := rfl

theorem hash_debugFmtL_erase (h : Hash a) : h.debugFmtL.erase = h.debugFmt := by
  simp only [Hash.debugFmtL, Hash.debugFmt, Leaky.erase_bind, toHexL_erase, revealText_erase, Leaky.ok_bind', Leaky.erase_pure]

theorem state_debugFmtL_erase (dbg : Bool) (s : State a) : (s.debugFmtL dbg).erase = s.debugFmt dbg := by
  simp only [State.debugFmtL, State.debugFmt, Leaky.erase_bind, getCountL_erase, revealText_erase, Leaky.ok_bind', Leaky.erase_pure]
  cases s.getCount dbg <;> rfl

theorem pstate_debugFmtL_erase (dbg : Bool) (s : PState a) : (s.debugFmtL dbg).erase = s.debugFmt dbg := by
  simp only [PState.debugFmtL, PState.debugFmt, Leaky.erase_bind, pgetCountL_erase, revealText_erase, Leaky.ok_bind', Leaky.erase_pure]
  cases s.getCount dbg <;> rfl

theorem api_execL_erase (dbg : Bool) (m : Mem a) (c : ApiCall Platform) : (c.execL dbg m).erase = c.exec dbg m := by
  cases c <;>
  simp only [ApiCall.execL, ApiCall.exec, Leaky.erase_bind, getStateL_erase, Leaky.erase_pure, Leaky.ok_bind', setter_runL_erase,
    psetter_runL_erase, hashL_erase, withParamsL_erase, op_execL_erase, pop_execL_erase, finalizeL_erase, pfinalizeL_erase, newL_erase,
    Leaky.erase_mapList, hashManyL_erase, toHashL_erase, asBytesL_erase, asArrayL_erase, eqHashL_erase, eqSliceL_erase, toHexL_erase,
    phashL_erase, pwithParamsL_erase, revealText_erase, hash_debugFmtL_erase, state_debugFmtL_erase, pstate_debugFmtL_erase,
    Params.toState, PParams.toState, blake2, blake2p, State.new, PState.new, runBatch, bind_assoc]

theorem runL_erase (dbg : Bool) (prog : List (ApiCall Platform)) (m : Mem a) : (m.runL dbg prog).erase = m.run dbg prog := by
  induction prog generalizing m with
  | nil => rfl
  | cons c cs ih => simp only [Mem.runL, Mem.run, Leaky.erase_bind, api_execL_erase, ih, Leaky.erase_pure]

/-! ## Public-equal memories -/

/-- Memories that agree on what is public. -/
structure PubMem (m n : Mem a) : Prop where
  params : All2 PubParams m.params n.params
  states : All2 PubS m.states n.states
  jobs : All2 PubHM m.jobs n.jobs
  hashes : All2 PubHash m.hashes n.hashes
  treeParams : All2 PubPP m.treeParams n.treeParams
  treeStates : All2 PubPS m.treeStates n.treeStates

theorem revealText_same {t u : String} (h : t = u) : Same (fun _ _ => True) (revealText t) (revealText u) := by
  subst h; exact ⟨rfl, .ok trivial⟩

theorem toHexL_same {h k : Hash a} (hp : PubHash h k) (e : h.asBytes = k.asBytes) : Same Eq h.toHexL k.toHexL := by
  have hs := asBytesL_same hp
  unfold Hash.toHexL
  refine Same.bind (R := Eq) ⟨hs.log, ?_⟩ fun x y r => ?_
  · rw [asBytesL_erase, asBytesL_erase, e]
    cases k.asBytes with
    | ok => exact .ok rfl
    | error => exact .error _
  · subst r
    refine ⟨rfl, ?_⟩
    cases (Hash.bytesToHexL a x []).erase with
    | ok => exact .ok rfl
    | error => exact .error _

theorem asArrayL_same (dbg : Bool) {h k : Hash a} (hp : PubHash h k) : Same LEq (h.asArrayL dbg) (k.asArrayL dbg) := by
  unfold Hash.asArrayL
  rw [hp.len]
  exact .branch Iff.rfl (fun _ => .fault _) fun _ => .pure hp.bytes

theorem sameRes {α : Type} (r : Res α) : Same Eq (⟨[], r⟩ : Leaky α) ⟨[], r⟩ := by
  refine ⟨rfl, ?_⟩
  cases r with
  | ok => exact .ok rfl
  | error => exact .error _

theorem ResRel.eq {α : Type} {x y : Res α} (h : ResRel Eq x y) : x = y := by
  cases h with
  | ok h => rw [h]
  | error => rfl

theorem state_debugFmtL_same (dbg : Bool) {s t : State a} (h : PubS s t) : Same (fun _ _ => True) (s.debugFmtL dbg) (t.debugFmtL dbg) := by
  have hc := getCountL_same dbg h
  have e : s.debugFmt dbg = t.debugFmt dbg := by
    have := hc.res.eq
    rw [getCountL_erase, getCountL_erase] at this
    unfold State.debugFmt
    rw [this, h.hashLength, h.lastNode]
  unfold State.debugFmtL
  rw [e]
  exact hc.bind fun _ _ _ => (sameRes _).bind fun _ _ r => (revealText_same r).bind fun _ _ _ => .pure trivial

theorem pstate_debugFmtL_same (dbg : Bool) {s t : PState a} (h : PubPS s t) : Same (fun _ _ => True) (s.debugFmtL dbg) (t.debugFmtL dbg) := by
  have hc := pgetCountL_same dbg h
  have e : s.debugFmt dbg = t.debugFmt dbg := by
    have := hc.res.eq
    rw [pgetCountL_erase, pgetCountL_erase] at this
    unfold PState.debugFmt
    rw [this, h.hashLength]
  unfold PState.debugFmtL
  rw [e]
  exact hc.bind fun _ _ _ => (sameRes _).bind fun _ _ r => (revealText_same r).bind fun _ _ _ => .pure trivial

theorem foldl_set_same {S : Type} {R : S → S → Prop} (is : List Nat) {out out' : List S} (ho : All2 R out out') {ss ts : List S}
    (h : All2 R ss ts) :
    All2 R ((is.zip out).foldl (fun ss p => ss.set p.1 p.2) ss) ((is.zip out').foldl (fun ss p => ss.set p.1 p.2) ts) := by
  induction is generalizing out out' ss ts with
  | nil => exact h
  | cons i is ih =>
    cases ho with
    | nil => exact h
    | cons r t => exact ih t (h.set _ r)

theorem all2_refl {S : Type} (l : List S) : All2 Eq l l := by
  induction l with
  | nil => exact .nil
  | cons x l ih => exact .cons rfl ih

theorem same_get {S : Type} {R : S → S → Prop} {ss ts : List S} (h : All2 R ss ts) (i : Nat) :
    Same (fun s t => R s t ∧ getState ss i = .ok s ∧ getState ts i = .ok t) (getStateL ss i) (getStateL ts i) := by
  have := getStateL_same h i
  refine ⟨this.log, ?_⟩
  have hr := this.res
  rw [getStateL_erase, getStateL_erase] at hr ⊢
  revert hr
  cases getState ss i <;> cases getState ts i <;> intro hr <;> cases hr
  · exact .error _
  · next r => exact .ok ⟨r, rfl, rfl⟩

/-- What the calls that print need: that what they print is the same. -/
structure SamePrint (m n : Mem a) (c : ApiCall Platform) : Prop where
  params : ∀ i, c = .debugParams i → ∀ p q, getState m.params i = .ok p → getState n.params i = .ok q → p.debugFmt = q.debugFmt
  hashes : ∀ i, (c = .toHex i ∨ c = .debugHash i) → ∀ h k, getState m.hashes i = .ok h → getState n.hashes i = .ok k → h.asBytes = k.asBytes

theorem api_execL_same (dbg : Bool) {m n : Mem a} (h : PubMem m n) {c d : ApiCall Platform} (hc : c.Indist a d) (hp : SamePrint m n c) :
    Same (fun r r' => PubMem r.1 r'.1) (c.execL dbg m) (d.execL dbg n) := by
  obtain ⟨h1, h2, h3, h4, h5, h6⟩ := h
  have g1 := getStateL_same h1
  have g2 := getStateL_same h2
  have g3 := getStateL_same h3
  have g4 := getStateL_same h4
  have g5 := getStateL_same h5
  have g6 := getStateL_same h6
  have addP : ∀ {p q : Params a}, PubParams p q → PubMem { m with params := m.params ++ [p] } { n with params := n.params ++ [q] } :=
    fun r => ⟨h1.append (.cons r .nil), h2, h3, h4, h5, h6⟩
  have setP : ∀ (i : Nat) {p q : Params a}, PubParams p q → PubMem { m with params := m.params.set i p } { n with params := n.params.set i q } :=
    fun i _ _ r => ⟨h1.set i r, h2, h3, h4, h5, h6⟩
  have addS : ∀ {p q : State a}, PubS p q → PubMem { m with states := m.states ++ [p] } { n with states := n.states ++ [q] } :=
    fun r => ⟨h1, h2.append (.cons r .nil), h3, h4, h5, h6⟩
  have addJ : ∀ {p q : HashManyJob a}, PubHM p q → PubMem { m with jobs := m.jobs ++ [p] } { n with jobs := n.jobs ++ [q] } :=
    fun r => ⟨h1, h2, h3.append (.cons r .nil), h4, h5, h6⟩
  have addH : ∀ {p q : Hash a}, PubHash p q → PubMem { m with hashes := m.hashes ++ [p] } { n with hashes := n.hashes ++ [q] } :=
    fun r => ⟨h1, h2, h3, h4.append (.cons r .nil), h5, h6⟩
  have addT : ∀ {p q : PParams a}, PubPP p q →
      PubMem { m with treeParams := m.treeParams ++ [p] } { n with treeParams := n.treeParams ++ [q] } :=
    fun r => ⟨h1, h2, h3, h4, h5.append (.cons r .nil), h6⟩
  have setT : ∀ (i : Nat) {p q : PParams a}, PubPP p q →
      PubMem { m with treeParams := m.treeParams.set i p } { n with treeParams := n.treeParams.set i q } :=
    fun i _ _ r => ⟨h1, h2, h3, h4, h5.set i r, h6⟩
  have addU : ∀ {p q : PState a}, PubPS p q →
      PubMem { m with treeStates := m.treeStates ++ [p] } { n with treeStates := n.treeStates ++ [q] } :=
    fun r => ⟨h1, h2, h3, h4, h5, h6.append (.cons r .nil)⟩
  have same : PubMem m n := ⟨h1, h2, h3, h4, h5, h6⟩
  cases c with
  | newParams plat => cases hc; exact .pure (addP PubParams.rfl)
  | cloneParams i => cases hc; exact (g1 i).bind fun _ _ r => .pure (addP r)
  | set i s =>
    obtain ⟨t, rfl, hs⟩ := hc
    exact (g1 i).bind fun _ _ r => (setter_same r hs).bind fun _ _ r => .pure (setP i r)
  | forcePortable i =>
    cases hc
    exact (g1 i).bind fun _ _ r => .pure (setP i ⟨r.hashLength, r.keyLength, r.keyBlock, r.salt, r.personal, r.lastNode, rfl⟩)
  | hash i x =>
    obtain ⟨y, rfl, hx⟩ := hc
    exact (g1 i).bind fun _ _ r => (hashL_same r hx).bind fun _ _ r => .pure (addH r)
  | toState i => cases hc; exact (g1 i).bind fun _ _ r => (withParamsL_same r).bind fun _ _ r => .pure (addS r)
  | debugParams i =>
    cases hc
    exact (same_get h1 i).bind fun _ _ r => (revealText_same (hp.params i rfl _ _ r.2.1 r.2.2)).bind fun _ _ _ => .pure same
  | oneShot plat x =>
    obtain ⟨y, rfl, hx⟩ := hc
    exact (hashL_same PubParams.rfl hx).bind fun _ _ r => .pure (addH r)
  | newState plat => cases hc; exact (withParamsL_same PubParams.rfl).bind fun _ _ r => .pure (addS r)
  | onStates op =>
    obtain ⟨op', rfl, ho⟩ := hc
    exact (execL_same dbg h2 ho).bind fun _ _ r => .pure ⟨h1, r, h3, h4, h5, h6⟩
  | finalize i => cases hc; exact (g2 i).bind fun _ _ r => (finalizeL_same r).bind fun _ _ r => .pure (addH r)
  | debugState i => cases hc; exact (g2 i).bind fun _ _ r => (state_debugFmtL_same dbg r).bind fun _ _ _ => .pure same
  | newJob i x =>
    obtain ⟨y, rfl, hx⟩ := hc
    exact (g1 i).bind fun _ _ r => (newL_same r hx).bind fun _ _ r => .pure (addJ r)
  | cloneJob i => cases hc; exact (g3 i).bind fun _ _ r => .pure (addJ r)
  | hashMany is =>
    cases hc
    exact (Same.mapList (S := PubHM) (all2_refl is) fun i j e => by subst e; exact g3 i).bind fun _ _ r => (hashManyL_same r).bind fun _ _ r =>
      .pure ⟨h1, h2, foldl_set_same is r h3, h4, h5, h6⟩
  | toHash i => cases hc; exact (g3 i).bind fun _ _ r => (toHashL_same dbg r).bind fun _ _ r => .pure (addH r)
  | debugJob i =>
    cases hc
    refine (g3 i).bind fun j k r => (revealText_same ?_).bind fun _ _ _ => .pure same
    unfold HashManyJob.debugFmt
    rw [r.count, r.hashLength, r.lastNode, show j.input.length = k.input.length from r.input]
  | ofArray x =>
    obtain ⟨y, rfl, hx⟩ := hc
    exact .pure (addH ⟨hx, rfl⟩)
  | asBytes i => cases hc; exact (g4 i).bind fun _ _ r => (asBytesL_same r).bind fun _ _ _ => .pure same
  | asArray i => cases hc; exact (g4 i).bind fun _ _ r => (asArrayL_same dbg r).bind fun _ _ _ => .pure same
  | toHex i =>
    cases hc
    exact (same_get h4 i).bind fun _ _ r => (toHexL_same r.1 (hp.hashes i (.inl rfl) _ _ r.2.1 r.2.2)).bind fun _ _ _ => .pure same
  | eqHash i j => cases hc; exact (g4 i).bind fun _ _ r => (g4 j).bind fun _ _ r' => (eqHashL_same r r').bind fun _ _ _ => .pure same
  | eqBytes i x =>
    obtain ⟨y, rfl, hx⟩ := hc
    exact (g4 i).bind fun _ _ r => (eqSliceL_same r hx).bind fun _ _ _ => .pure same
  | debugHash i =>
    cases hc
    refine (same_get h4 i).bind fun _ _ r => Same.bind (R := fun _ _ => True) ?_ fun _ _ _ => .pure same
    exact (toHexL_same r.1 (hp.hashes i (.inr rfl) _ _ r.2.1 r.2.2)).bind fun _ _ e =>
      (revealText_same (by rw [e])).bind fun _ _ _ => .pure trivial
  | newTree plat => cases hc; exact .pure (addT PubPP.rfl)
  | cloneTree i => cases hc; exact (g5 i).bind fun _ _ r => .pure (addT r)
  | setTree i s =>
    obtain ⟨t, rfl, hs⟩ := hc
    exact (g5 i).bind fun _ _ r => (psetter_same r hs).bind fun _ _ r => .pure (setT i r)
  | forcePortableTree i => cases hc; exact (g5 i).bind fun _ _ r => .pure (setT i ⟨r.hashLength, r.keyLength, r.key, rfl⟩)
  | hashTree i x =>
    obtain ⟨y, rfl, hx⟩ := hc
    exact (g5 i).bind fun _ _ r => (phashL_same r hx).bind fun _ _ r => .pure (addH r)
  | toTreeState i => cases hc; exact (g5 i).bind fun _ _ r => (pwithParamsL_same r).bind fun _ _ r => .pure (addU r)
  | debugTree i =>
    cases hc
    refine (g5 i).bind fun j k r => (revealText_same ?_).bind fun _ _ _ => .pure same
    unfold PParams.debugFmt
    rw [r.hashLength, r.keyLength]
  | oneShotTree plat x =>
    obtain ⟨y, rfl, hx⟩ := hc
    exact (phashL_same PubPP.rfl hx).bind fun _ _ r => .pure (addH r)
  | newTreeState plat => cases hc; exact (pwithParamsL_same PubPP.rfl).bind fun _ _ r => .pure (addU r)
  | onTreeStates op =>
    obtain ⟨op', rfl, ho⟩ := hc
    exact (pexecL_same dbg h6 ho).bind fun _ _ r => .pure ⟨h1, h2, h3, h4, h5, r⟩
  | finalizeTree i => cases hc; exact (g6 i).bind fun _ _ r => (pfinalizeL_same r).bind fun _ _ r => .pure (addH r)
  | debugTreeState i => cases hc; exact (g6 i).bind fun _ _ r => (pstate_debugFmtL_same dbg r).bind fun _ _ _ => .pure same

/-! ## Features -/

variable {P : Feature → Prop}

/-- Everything in the memory runs code that may run. -/
structure MemAllowed (P : Feature → Prop) (m : Mem a) : Prop where
  params : ∀ p ∈ m.params, Allowed P p.implementation
  states : ∀ p ∈ m.states, Allowed P p.implementation
  jobs : ∀ p ∈ m.jobs, Allowed P p.implementation
  treeParams : ∀ p ∈ m.treeParams, Allowed P p.implementation
  treeStates : ∀ p ∈ m.treeStates, Allowed P p.implementation

/-- A call makes only values that run code that may run. -/
def CallAllowed (P : Feature → Prop) : ApiCall Platform → Prop
  | .newParams plat => Allowed P plat
  | .oneShot plat _ => Allowed P plat
  | .newState plat => Allowed P plat
  | .onStates op => OpAllowed P op
  | .newTree plat => Allowed P plat
  | .oneShotTree plat _ => Allowed P plat
  | .newTreeState plat => Allowed P plat
  | .onTreeStates op => POpAllowed P op
  | _ => True

theorem revealText_uses (t : String) : UsesAny P (revealText t) :=
  ⟨fun _ h => (by obtain ⟨_, _, e⟩ := List.mem_map.1 h; cases e), fun _ _ => trivial⟩

theorem toHexL_uses (h : Hash a) : UsesAny P h.toHexL := by
  refine (asBytesL_uses h).bind fun x _ => ?_
  generalize ([] : List Char) = s
  induction x generalizing s with
  | nil => exact .pure trivial
  | cons b x ih =>
    have hx : ∀ i, UsesAny P (Hash.hexAtL i) := fun i => by
      refine (Uses.accessLog _ _).bind fun _ _ => ?_
      split
      · exact .pure trivial
      · exact .fault _
    have hp : ∀ s c, UsesAny P (Hash.pushL a s c) := fun s c => .branch (.pure trivial) (.fault _)
    exact (hx _).bind fun _ _ => (hp _ _).bind fun _ _ => (hx _).bind fun _ _ => (hp _ _).bind fun s _ => ih s

theorem constantTimeEqL_uses (x y : List Byte) : UsesAny P (constantTimeEqL x y) := by
  refine .branch (.pure trivial) (Uses.bind (Q := fun _ => True) ?_ fun _ _ => .pure trivial)
  generalize x.zip y = l
  generalize (0 : Byte) = acc
  generalize 0 = i
  induction l generalizing i acc with
  | nil => exact (Uses.branchLog _).bind fun _ _ => .pure trivial
  | cons p l ih => exact (Uses.branchLog _).bind fun _ _ => (Uses.accessLog _ _).bind fun _ _ => ih _ _

theorem usesRes {α : Type} (r : Res α) : UsesAny P (⟨[], r⟩ : Leaky α) := ⟨fun _ h => (nomatch h), fun _ _ => trivial⟩

theorem api_execL_uses (dbg : Bool) {m : Mem a} (h : MemAllowed P m) (c : ApiCall Platform) (hc : CallAllowed P c) :
    Uses P (fun r => MemAllowed P r.1) (c.execL dbg m) := by
  obtain ⟨h1, h2, h3, h5, h6⟩ := h
  have g4 : ∀ i, Uses P (fun _ => True) (getStateL m.hashes i) := getStateL_uses (Q := fun _ => True) (fun _ _ => trivial)
  have same : MemAllowed P m := ⟨h1, h2, h3, h5, h6⟩
  have addH : ∀ k : Hash a, MemAllowed P { m with hashes := m.hashes ++ [k] } := fun k => ⟨h1, h2, h3, h5, h6⟩
  cases c with
  | newParams plat => exact .pure ⟨append_inv h1 hc, h2, h3, h5, h6⟩
  | cloneParams i => exact (getStateL_uses h1 i).bind fun _ r => .pure ⟨append_inv h1 r, h2, h3, h5, h6⟩
  | set i s =>
    exact (getStateL_uses h1 i).bind fun _ r => (setter_uses s _).bind fun _ e => .pure ⟨set_inv h1 i (by rw [e]; exact r), h2, h3, h5, h6⟩
  | forcePortable i => exact (getStateL_uses h1 i).bind fun _ r => .pure ⟨set_inv h1 i trivial, h2, h3, h5, h6⟩
  | hash i x => exact (getStateL_uses h1 i).bind fun _ r => (hashL_uses r x).bind fun _ _ => .pure (addH _)
  | toState i =>
    exact (getStateL_uses h1 i).bind fun _ r => (State.withParamsL_uses _).bind fun _ e =>
      .pure ⟨h1, append_inv h2 (by rw [e]; exact r), h3, h5, h6⟩
  | debugParams i => exact (getStateL_uses h1 i).bind fun _ r => (revealText_uses _).bind fun _ _ => .pure same
  | oneShot plat x => exact (hashL_uses (p := Params.new a plat) hc x).bind fun _ _ => .pure (addH _)
  | newState plat =>
    exact (State.withParamsL_uses _).bind fun _ e => .pure ⟨h1, append_inv h2 (by rw [e]; exact hc), h3, h5, h6⟩
  | onStates op => exact (execL_uses dbg h2 op hc).bind fun _ r => .pure ⟨h1, r, h3, h5, h6⟩
  | finalize i => exact (getStateL_uses h2 i).bind fun _ r => (State.finalizeL_uses r).bind fun _ _ => .pure (addH _)
  | debugState i =>
    refine (getStateL_uses h2 i).bind fun s r => Uses.bind (Q := fun _ => True) ?_ fun _ _ => .pure same
    exact (State.getCountL_uses dbg s).bind fun _ _ => (usesRes _).bind fun _ _ => (revealText_uses _).bind fun _ _ => .pure trivial
  | newJob i x =>
    exact (getStateL_uses h1 i).bind fun _ r => (newL_uses r x).bind fun _ e => .pure ⟨h1, h2, append_inv h3 e, h5, h6⟩
  | cloneJob i => exact (getStateL_uses h3 i).bind fun _ r => .pure ⟨h1, h2, append_inv h3 r, h5, h6⟩
  | hashMany is =>
    refine (Uses.mapList fun i _ => getStateL_uses h3 i).bind fun pick hp => (hashManyL_uses pick hp).bind fun out ho =>
      .pure ⟨h1, h2, ?_, h5, h6⟩
    have : ∀ (l : List (Nat × HashManyJob a)) (ss : List (HashManyJob a)), (∀ q ∈ l, Allowed P q.2.implementation) →
        (∀ s ∈ ss, Allowed P s.implementation) → ∀ s ∈ l.foldl (fun ss p => ss.set p.1 p.2) ss, Allowed P s.implementation := by
      intro l
      induction l with
      | nil => exact fun ss _ h => h
      | cons q l ih =>
        intro ss hq h
        exact ih _ (fun q' h' => hq q' (List.mem_cons_of_mem _ h')) (set_inv h _ (hq q (by simp)))
    exact this _ _ (fun q hq => ho _ (List.of_mem_zip hq).2) h3
  | toHash i =>
    refine (getStateL_uses h3 i).bind fun _ r => Uses.bind (Q := fun _ => True) ?_ fun _ _ => .pure (addH _)
    exact .branch (.fault _) (.pure trivial)
  | debugJob i => exact (getStateL_uses h3 i).bind fun _ r => (revealText_uses _).bind fun _ _ => .pure same
  | ofArray x => exact .pure (addH _)
  | asBytes i => exact (g4 i).bind fun k _ => (asBytesL_uses k).bind fun _ _ => .pure same
  | asArray i =>
    refine (g4 i).bind fun k _ => Uses.bind (Q := fun _ => True) ?_ fun _ _ => .pure same
    exact .branch (.fault _) (.pure trivial)
  | toHex i => exact (g4 i).bind fun k _ => (toHexL_uses k).bind fun _ _ => .pure same
  | eqHash i j =>
    refine (g4 i).bind fun k _ => (g4 j).bind fun k' _ => Uses.bind (Q := fun _ => True) ?_ fun _ _ => .pure same
    exact (asBytesL_uses k).bind fun _ _ => (asBytesL_uses k').bind fun _ _ => constantTimeEqL_uses _ _
  | eqBytes i x =>
    refine (g4 i).bind fun k _ => Uses.bind (Q := fun _ => True) ?_ fun _ _ => .pure same
    exact (asBytesL_uses k).bind fun _ _ => constantTimeEqL_uses _ _
  | debugHash i =>
    refine (g4 i).bind fun k _ => Uses.bind (Q := fun _ => True) ?_ fun _ _ => .pure same
    exact (toHexL_uses k).bind fun _ _ => (revealText_uses _).bind fun _ _ => .pure trivial
  | newTree plat => exact .pure ⟨h1, h2, h3, append_inv h5 hc, h6⟩
  | cloneTree i => exact (getStateL_uses h5 i).bind fun _ r => .pure ⟨h1, h2, h3, append_inv h5 r, h6⟩
  | setTree i s =>
    exact (getStateL_uses h5 i).bind fun _ r => (PParams.setter_uses s _).bind fun _ e =>
      .pure ⟨h1, h2, h3, set_inv h5 i (by rw [e]; exact r), h6⟩
  | forcePortableTree i => exact (getStateL_uses h5 i).bind fun _ r => .pure ⟨h1, h2, h3, set_inv h5 i trivial, h6⟩
  | hashTree i x => exact (getStateL_uses h5 i).bind fun _ r => (phashL_uses r x).bind fun _ _ => .pure (addH _)
  | toTreeState i =>
    exact (getStateL_uses h5 i).bind fun _ r => (PState.withParamsL_uses _).bind fun _ e =>
      .pure ⟨h1, h2, h3, h5, append_inv h6 (by rw [e]; exact r)⟩
  | debugTree i => exact (getStateL_uses h5 i).bind fun _ r => (revealText_uses _).bind fun _ _ => .pure same
  | oneShotTree plat x => exact (phashL_uses (p := PParams.new a plat) hc x).bind fun _ _ => .pure (addH _)
  | newTreeState plat =>
    exact (PState.withParamsL_uses _).bind fun _ e => .pure ⟨h1, h2, h3, h5, append_inv h6 (by rw [e]; exact hc)⟩
  | onTreeStates op => exact (pexecL_uses dbg h6 op hc).bind fun _ r => .pure ⟨h1, h2, h3, h5, r⟩
  | finalizeTree i => exact (getStateL_uses h6 i).bind fun _ r => (PState.finalizeL_uses r).bind fun _ _ => .pure (addH _)
  | debugTreeState i =>
    refine (getStateL_uses h6 i).bind fun s r => Uses.bind (Q := fun _ => True) ?_ fun _ _ => .pure same
    exact (PState.getCountL_uses dbg s).bind fun _ _ => (usesRes _).bind fun _ _ => (revealText_uses _).bind fun _ _ => .pure trivial

theorem runL_uses (dbg : Bool) (prog : List (ApiCall Platform)) {m : Mem a} (h : MemAllowed P m) (hc : ∀ c ∈ prog, CallAllowed P c) :
    UsesAny P (m.runL dbg prog) := by
  induction prog generalizing m with
  | nil => exact .pure trivial
  | cons c cs ih =>
    refine (api_execL_uses dbg h c (hc c (by simp))).bind ?_
    rintro ⟨m1, o⟩ h1
    exact (ih h1 fun c' h' => hc c' (List.mem_cons_of_mem _ h')).bind fun _ _ => .pure trivial

end Blake2
