import Verif.LeakSpec
import Verif.WorldSpec
/-!
# Two programs over the whole API that an observer should not be able to tell apart

They make the same calls in the same order, with byte strings of the same lengths. What they ask the library to print is the same in
both; what they do not ask to be printed may differ. Nothing here refers to the model.
-/
namespace Blake2.Spec

/-- Two calls that differ only in the contents of byte strings and in tree parameters. -/
def ApiCall.Indist {π : Type} (a : Alg) (c d : ApiCall π) : Prop :=
  match c with
  | .set i s => ∃ t, d = .set i t ∧ s.Indist a t
  | .hash i x => ∃ y, d = .hash i y ∧ x.length = y.length
  | .oneShot p x => ∃ y, d = .oneShot p y ∧ x.length = y.length
  | .onStates op => ∃ op', d = .onStates op' ∧ op.Indist a op'
  | .newJob i x => ∃ y, d = .newJob i y ∧ x.length = y.length
  | .ofArray x => ∃ y, d = .ofArray y ∧ x.length = y.length
  | .eqBytes i x => ∃ y, d = .eqBytes i y ∧ x.length = y.length
  | .setTree i s => ∃ t, d = .setTree i t ∧ s.Indist t
  | .hashTree i x => ∃ y, d = .hashTree i y ∧ x.length = y.length
  | .oneShotTree p x => ∃ y, d = .oneShotTree p y ∧ x.length = y.length
  | .onTreeStates op => ∃ op', d = .onTreeStates op' ∧ op.Indist op'
  | c => d = c

/-- The calls that print what may be secret: a digest, or salt, personalization and tree parameters. (What `Debug` prints of states,
jobs and the parameters of the tree variants is public.) -/
def ApiCall.Prints {π : Type} : ApiCall π → Prop
  | .toHex _ => True
  | .debugHash _ => True
  | .debugParams _ => True
  | _ => False

/-- Clients that hold `w` and `w'` run programs that an observer should not be able to tell apart: well-typed, with the same calls
up to hidden contents, and where something secret is printed it is the same in both. A program ends at its first panic. -/
def World.IndistPrograms {π : Type} (a : Alg) (dbg : Bool) : World → World → List (ApiCall π) → List (ApiCall π) → Prop
  | _, _, [], [] => True
  | w, w', c :: cs, d :: ds =>
    c.WellTyped a w ∧ d.WellTyped a w' ∧ c.Indist a d ∧ (c.Prints → c.answer a w = d.answer a w') ∧
      (¬ c.Panics a dbg w → World.IndistPrograms a dbg (c.next a w) (d.next a w') cs ds)
  | _, _, _, _ => False

end Blake2.Spec
