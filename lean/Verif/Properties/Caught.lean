import Verif.Proofs.Caught
/-!
# C73: programs that catch panics
-/
namespace Blake2
open Spec

variable {a : Alg}

/-- A documented panic leaves the memory as it was. -/
theorem left_eq {w : World} {m : Mem a} (rp : Rel (Rep a) w.params m.params)
    (rt : Rel (fun c p => PRep a c.hashLength c.key p) w.treeParams m.treeParams) (dbg : Bool)
    (c : ApiCall Platform) (hw : c.WellTyped a w) (hp : c.Panics a dbg w) : c.left m = .ok m := by
  cases c <;> try exact hp.elim
  case set i s =>
    obtain ⟨p, e, h, _⟩ := rp.get hw
    have e' : m.params[i]? = some p := by
      unfold getState at e
      split at e <;> simp_all
    simp only [ApiCall.left, e, bind, Except.bind, C51_rejected p s hp]
    obtain ⟨_, rfl⟩ := List.getElem?_eq_some_iff.1 e'
    rw [List.set_getElem_self]
  case setTree i s =>
    obtain ⟨p, e, h, _⟩ := rt.get hw
    have e' : m.treeParams[i]? = some p := by
      unfold getState at e
      split at e <;> simp_all
    simp only [ApiCall.left, e, bind, Except.bind, C51_tree_rejected p s hp]
    obtain ⟨_, rfl⟩ := List.getElem?_eq_some_iff.1 e'
    rw [List.set_getElem_self]
  case onStates op => cases op <;> first | rfl | exact hp.elim
  case onTreeStates op => cases op <;> first | rfl | exact hp.elim
  all_goals rfl

theorem attempts_near {w : World} {m m' : Mem a} {s : Spoilt} (rm : MemRel a w m') (r : NearMem s m m') (dbg : Bool)
    (ts : List (Attempt Platform)) (ht : w.TypedAttempts a dbg ts) :
    ∃ m1 os, m.attempts dbg ts = .ok (m1, os) ∧ w.RightAnswers a dbg s ts os := by
  induction ts generalizing w m m' s with
  | nil => exact ⟨m, [], rfl, rfl⟩
  | cons t ts ih =>
    obtain ⟨hw, ht⟩ := ht
    cases t with
    | call c =>
      have near := apiCall_near rm r dbg c hw
      by_cases hp : c.Panics a dbg w
      · rw [apiCall_panics rm dbg c hw hp] at near
        obtain hx | ⟨e, hx⟩ : (∃ v, c.exec dbg m = .ok v) ∨ ∃ e, c.exec dbg m = .error e := by
          cases h : c.exec dbg m <;> simp
        · obtain ⟨v, hx⟩ := hx
          rw [hx] at near
          exact near.elim
        rw [hx] at near
        have : e = .panic := near
        subst this
        have hl := left_eq (m := m) (by rw [r.params]; exact rm.params) (by rw [r.treeParams]; exact rm.treeParams) dbg c hw hp
        have hn : (Attempt.call c : Attempt Platform).next a dbg w = w := if_pos hp
        rw [hn] at ht
        obtain ⟨m1, os, h1, h2⟩ := ih rm r ht
        refine ⟨m1, none :: os, ?_, ?_⟩
        · simp only [Mem.attempts, Attempt.exec, hx, hl, bind, Except.bind, h1]
        · unfold World.RightAnswers
          rw [if_pos hp]
          exact ⟨os, rfl, h2⟩
      · obtain ⟨m1', e', rm'⟩ := apiCall_refines rm dbg c hw hp
        rw [e'] at near
        obtain ⟨⟨m1, o⟩, hx⟩ | ⟨e, hx⟩ : (∃ v, c.exec dbg m = .ok v) ∨ ∃ e, c.exec dbg m = .error e := by
          cases h : c.exec dbg m <;> simp
        · rw [hx] at near
          have hn : (Attempt.call c : Attempt Platform).next a dbg w = c.next a w := if_neg hp
          rw [hn] at ht
          obtain ⟨m2, os, h1, h2⟩ := ih rm' near.1 ht
          refine ⟨m2, some o :: os, ?_, ?_⟩
          · simp only [Mem.attempts, Attempt.exec, hx, bind, Except.bind, h1]
          · unfold World.RightAnswers
            rw [if_neg hp]
            exact ⟨o, os, rfl, near.2, h2⟩
        · rw [hx] at near
          exact near.elim
    | updateManyPanics jobs =>
      obtain ⟨m1, m1', torn, e1, e2, h1, h2, near⟩ := updateManyPanics_near rm r dbg jobs hw
      obtain ⟨m2', e', rm'⟩ := apiCall_refines rm dbg (.onStates (.updateMany jobs)) hw id
      rw [e2] at e'
      injection e' with e'
      injection e' with e' _
      subst e'
      obtain ⟨m2, os, h3, h4⟩ := ih rm' near ht
      refine ⟨m2, none :: os, ?_, torn, os, rfl, h1, h2, h4⟩
      simp only [Mem.attempts, e1, bind, Except.bind, h3]
    | hashManyPanics is =>
      obtain ⟨m1, m1', torn, e1, e2, h1, h2, near⟩ := hashManyPanics_near rm r dbg is hw
      obtain ⟨m2', e', rm'⟩ := apiCall_refines rm dbg (.hashMany is) hw id
      rw [e2] at e'
      injection e' with e'
      injection e' with e' _
      subst e'
      obtain ⟨m2, os, h3, h4⟩ := ih rm' near ht
      refine ⟨m2, none :: os, ?_, torn, os, rfl, h1, h2, h4⟩
      simp only [Mem.attempts, e1, bind, Except.bind, h3]

theorem nearMem_empty : NearMem {} ({} : Mem a) {} :=
  ⟨rfl, ⟨rfl, fun i h => absurd h (Nat.not_lt_zero i)⟩, ⟨rfl, fun i h => absurd h (Nat.not_lt_zero i)⟩,
    ⟨rfl, fun i h => absurd h (Nat.not_lt_zero i)⟩, rfl, rfl⟩

/-! ## C73 -/

/-- C73. A program over the whole public API that catches every panic — the documented ones, and those of the iterators it gives
to `update_many` and `hash_many` — and goes on with what it holds: exactly the documented calls panic, and every answer is that of
a program which made no call that panicked and whose iterators ended where they panicked, but for the few values (fewer than the
lanes of a loop, for each iterator that panicked) that were being compressed then. -/
theorem C73_attempts (dbg : Bool) (ts : List (Attempt Platform)) (ht : World.TypedAttempts a dbg {} ts) :
    ∃ m os, ({} : Mem a).attempts dbg ts = .ok (m, os) ∧ World.RightAnswers a dbg {} {} ts os :=
  attempts_near memRel_empty nearMem_empty dbg ts ht

theorem caught_of_right (dbg : Bool) (w : World) (prog : List (ApiCall Platform)) (os : List (Option Answer))
    (h : w.RightAnswers a dbg {} (prog.map Attempt.call) os) : os = w.caught a dbg prog := by
  induction prog generalizing w os with
  | nil => exact h
  | cons c cs ih =>
    unfold World.caught
    rw [List.map_cons] at h
    unfold World.RightAnswers at h
    split at h
    · next hp =>
      obtain ⟨os', rfl, h⟩ := h
      rw [if_pos hp, ih _ _ h]
    · next hp =>
      obtain ⟨o, os', rfl, h1, h⟩ := h
      have hs : c.spread w {} = {} := by
        cases c <;> try rfl
        case onStates op => cases op <;> simp [ApiCall.spread]
        all_goals simp [ApiCall.spread]
      have hq : ¬ c.Shows {} := by
        cases c <;> try exact id
        case onStates op => cases op <;> simp [ApiCall.Shows]
        all_goals simp [ApiCall.Shows]
      rw [hs] at h
      rw [if_neg hp, h1 hq, ih _ _ h]

/-- C73. If the iterators do not panic, catching the panics of the library is safe: each call that is documented to panic does and
changes nothing, and all other answers are exactly those of the program without it. -/
theorem C73_calls (dbg : Bool) (prog : List (ApiCall Platform))
    (ht : World.TypedAttempts a dbg {} (prog.map Attempt.call)) :
    ∃ m, ({} : Mem a).attempts dbg (prog.map Attempt.call) = .ok (m, World.caught a dbg {} prog) := by
  obtain ⟨m, os, e, h⟩ := C73_attempts dbg _ ht
  rw [caught_of_right dbg {} prog os h] at e
  exact ⟨m, e⟩

/-- A program with panics of every kind: rejected arguments, a job asked too early, a short hash asked for its array, iterators
that panic with states and jobs in flight. -/
def sampleAttempts : List (Attempt Platform) :=
  [.call (.newParams .AVX2), .call (.set 0 (.hashLength 20)), .call (.set 0 (.hashLength 65)), .call (.set 0 (.key (List.replicate 65 1))),
   .call (.toState 0), .call (.toState 0), .call (.newState .AVX2), .updateManyPanics [(0, List.replicate 300 1), (2, [5])],
   .call (.onStates (.update 1 [9])), .call (.onStates (.finalize 1)), .call (.onStates (.clone 0)), .call (.onStates (.finalize 3)),
   .call (.newJob 0 [1]), .call (.newJob 0 [1]), .call (.toHash 0), .hashManyPanics [1], .call (.hashMany [0]), .call (.toHash 0),
   .call (.asArray 0), .call (.asBytes 0), .call (.newTree .SSE41), .call (.setTree 0 (.hashLength 0)), .call (.hashTree 0 [])]

example : World.TypedAttempts .b true {} sampleAttempts := by decide +kernel

/-- The same without the iterators that panic. -/
def sampleCalls : List (ApiCall Platform) :=
  [.newParams .AVX2, .set 0 (.hashLength 20), .set 0 (.hashLength 65), .toState 0, .onStates (.update 0 [9]), .newJob 0 [9], .toHash 0,
   .hashMany [0], .toHash 0, .asArray 0, .finalize 0, .eqHash 0 1]

example : World.TypedAttempts .s true {} (sampleCalls.map Attempt.call) := by decide +kernel

/-- The third call, the early `to_hash` and the `as_array` panic; the two hashes are equal. -/
example : (World.caught .s true {} sampleCalls).map Option.isSome =
      [true, true, false, true, true, true, false, true, true, false, true, true] ∧
    (World.caught .s true {} sampleCalls)[11]? = some (some (.bool true)) := by
  decide +kernel

end Blake2
