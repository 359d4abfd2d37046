import Verif.WorldSpec
/-!
# Specification: programs that catch panics

A client may run every call under `std::panic::catch_unwind` and go on after a panic. The panics are those of the library
(`ApiCall.Panics`) and those of the client's own iterators, which `update_many` and `hash_many` call.
-/
namespace Blake2.Spec

/-- Something a client does, catching the panic if there is one. -/
inductive Attempt (π : Type) where
  /-- any call of the API -/
  | call (c : ApiCall π)
  /-- `update_many`, with an iterator that yields these states and inputs and then panics -/
  | updateManyPanics (jobs : List (Nat × List Byte))
  /-- `hash_many`, with an iterator that yields these jobs and then panics -/
  | hashManyPanics (is : List Nat)

/-- The values that a panic left half done, and the ones made from them. -/
structure Spoilt where
  states : List Nat := []
  jobs : List Nat := []
  hashes : List Nat := []
deriving DecidableEq

/-- A value made from a spoilt one is spoilt: clones, and the hashes they give. -/
def ApiCall.spread {π : Type} (w : World) (s : Spoilt) : ApiCall π → Spoilt
  | .onStates (.clone i) => if i ∈ s.states then { s with states := w.states.length :: s.states } else s
  | .finalize i => if i ∈ s.states then { s with hashes := w.hashes.length :: s.hashes } else s
  | .cloneJob i => if i ∈ s.jobs then { s with jobs := w.jobs.length :: s.jobs } else s
  | .toHash i => if i ∈ s.jobs then { s with hashes := w.hashes.length :: s.hashes } else s
  | _ => s

/-- The calls whose answer is computed from the bytes of a spoilt hash or state. -/
def ApiCall.Shows {π : Type} (s : Spoilt) : ApiCall π → Prop
  | .onStates (.finalize i) => i ∈ s.states
  | .asBytes i => i ∈ s.hashes
  | .asArray i => i ∈ s.hashes
  | .toHex i => i ∈ s.hashes
  | .eqHash i j => i ∈ s.hashes ∨ j ∈ s.hashes
  | .eqBytes i _ => i ∈ s.hashes
  | .debugHash i => i ∈ s.hashes
  | _ => False

/-- The most lanes a loop has: `degree()` with AVX2. -/
def mostLanes : Alg → Nat
  | .b => 4
  | .s => 8

/-- What the type system guarantees. -/
def Attempt.WellTyped {π : Type} (a : Alg) (w : World) : Attempt π → Prop
  | .call c => c.WellTyped a w
  | .updateManyPanics jobs => (ApiCall.onStates (.updateMany jobs) : ApiCall π).WellTyped a w
  | .hashManyPanics is => (ApiCall.hashMany is : ApiCall π).WellTyped a w

/-- What the client holds afterwards: a call that panics has done nothing; a batch whose iterator panics has done what it would
have done with an iterator that ends there, spoilt values apart. -/
def Attempt.next {π : Type} (a : Alg) (dbg : Bool) (w : World) : Attempt π → World
  | .call c => if c.Panics a dbg w then w else c.next a w
  | .updateManyPanics jobs => (ApiCall.onStates (.updateMany jobs) : ApiCall π).next a w
  | .hashManyPanics is => (ApiCall.hashMany is : ApiCall π).next a w

/-- Every attempt is well-typed when its turn comes. -/
def World.TypedAttempts {π : Type} (a : Alg) (dbg : Bool) : World → List (Attempt π) → Prop
  | _, [] => True
  | w, t :: ts => t.WellTyped a w ∧ World.TypedAttempts a dbg (t.next a dbg w) ts

/-- The answers `os` (`none`: a panic was caught) are right for the attempts `ts` of a client that holds `w`, of which `s` is
spoilt. A call panics exactly if it is documented to. Otherwise it answers, and unless the answer is computed from the bytes of
something spoilt it is the answer of the specification. A batch whose iterator panics spoils fewer of the values it was given
than there are lanes, and no other. -/
def World.RightAnswers {π : Type} (a : Alg) (dbg : Bool) : World → Spoilt → List (Attempt π) → List (Option Answer) → Prop
  | _, _, [], os => os = []
  | w, s, .call c :: ts, os =>
    if c.Panics a dbg w then ∃ os', os = none :: os' ∧ World.RightAnswers a dbg w s ts os'
    else ∃ o os', os = some o :: os' ∧ (¬ c.Shows s → o = c.answer a w) ∧
      World.RightAnswers a dbg (c.next a w) (c.spread w s) ts os'
  | w, s, .updateManyPanics jobs :: ts, os =>
    ∃ torn os', os = none :: os' ∧ torn.length < mostLanes a ∧ (∀ i ∈ torn, i ∈ jobs.map Prod.fst) ∧
      World.RightAnswers a dbg ((.updateManyPanics jobs : Attempt π).next a dbg w) { s with states := torn ++ s.states } ts os'
  | w, s, .hashManyPanics is :: ts, os =>
    ∃ torn os', os = none :: os' ∧ torn.length < mostLanes a ∧ (∀ i ∈ torn, i ∈ is) ∧
      World.RightAnswers a dbg ((.hashManyPanics is : Attempt π).next a dbg w) { s with jobs := torn ++ s.jobs } ts os'

/-- The answers of the specification to calls whose panics are caught. -/
def World.caught {π : Type} (a : Alg) (dbg : Bool) : World → List (ApiCall π) → List (Option Answer)
  | _, [] => []
  | w, c :: cs =>
    if c.Panics a dbg w then none :: World.caught a dbg w cs else some (c.answer a w) :: World.caught a dbg (c.next a w) cs

instance {π : Type} (a : Alg) (w : World) (t : Attempt π) : Decidable (t.WellTyped a w) := by
  cases t <;> unfold Attempt.WellTyped <;> infer_instance

instance decTypedAttempts {π : Type} (a : Alg) (dbg : Bool) :
    (w : World) → (ts : List (Attempt π)) → Decidable (w.TypedAttempts a dbg ts)
  | _, [] => isTrue trivial
  | w, t :: ts =>
    have := decTypedAttempts a dbg (t.next a dbg w) ts
    inferInstanceAs (Decidable (_ ∧ _))

end Blake2.Spec
