import Verif.WorldSpec
/-!
# How long a program should take

Every call is allowed a number of units: one for each block of the bytes it is given, some more for the blocks that have to be padded,
for the key and for the tree, and one for each character it prints. What is in the blocks, how the bytes of a message were divided among
earlier calls, and how long the other messages of a batch are, plays no part. Nothing here refers to the model.
-/
namespace Blake2.Spec

/-- The units for a text that is printed. -/
def Answer.textLength : Answer → Nat
  | .text s => s.length
  | _ => 0

/-- An operation on states: two blocks may be pending besides those of the input. A batch is charged item by item. -/
def Op.units {π : Type} (a : Alg) : Op π → Nat
  | .create _ calls => 3 + calls.length
  | .update _ x => 3 + x.length / bb a
  | .write _ x => 3 + x.length / bb a
  | .updateMany jobs => 3 + (jobs.map fun j => 2 + j.2.length / bb a).sum
  | _ => 3

/-- An operation on tree states: every node of the tree has something pending. -/
def POp.units {π : Type} (a : Alg) : POp π → Nat
  | .create _ calls => 8 * degree a + calls.length
  | .update _ x => 8 * degree a + x.length / bb a
  | .write _ x => 8 * degree a + x.length / bb a
  | _ => 8 * degree a

/-- Any call, made when the client holds `w`. A job is charged when it is run, not when it is created. -/
def ApiCall.units {π : Type} (a : Alg) (w : World) (c : ApiCall π) : Nat :=
  match c with
  | .hash _ x => 3 + x.length / bb a
  | .oneShot _ x => 3 + x.length / bb a
  | .onStates op => op.units a
  | .hashMany is => 3 + (is.map fun i => 1 + (w.jobs[i]?.map fun t => t.msg.length / bb a).getD 0).sum
  | .hashTree _ x => 8 * degree a + x.length / bb a
  | .oneShotTree _ x => 8 * degree a + x.length / bb a
  | .toTreeState _ => 8 * degree a
  | .newTreeState _ => 8 * degree a
  | .onTreeStates op => op.units a
  | .finalizeTree _ => 8 * degree a
  | c => 3 + (c.answer a w).textLength

/-- A whole program. -/
def World.units {π : Type} (a : Alg) : World → List (ApiCall π) → Nat
  | _, [] => 0
  | w, c :: cs => c.units a w + World.units a (c.next a w) cs

/-- Every call is well-typed when its turn comes. A program ends at its first panic. -/
def World.WellTypedProgram {π : Type} (a : Alg) (dbg : Bool) : World → List (ApiCall π) → Prop
  | _, [] => True
  | w, c :: cs => c.WellTyped a w ∧ (¬ c.Panics a dbg w → World.WellTypedProgram a dbg (c.next a w) cs)

instance decWellTypedProgram {π : Type} (a : Alg) (dbg : Bool) :
    (w : World) → (prog : List (ApiCall π)) → Decidable (World.WellTypedProgram a dbg w prog)
  | _, [] => isTrue trivial
  | w, c :: cs =>
    if h : c.WellTyped a w then
      if p : c.Panics a dbg w then isTrue ⟨h, fun n => absurd p n⟩
      else match decWellTypedProgram a dbg (c.next a w) cs with
        | isTrue t => isTrue ⟨h, fun _ => t⟩
        | isFalse f => isFalse fun t => f (t.2 p)
    else isFalse fun t => h t.1

end Blake2.Spec
