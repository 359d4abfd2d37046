import Verif.WorldSpec
/-!
# Vocabulary for programs with threads

Threads may share values, through `&`, and each has values of its own. Rust's type system lets a call change only what it takes by
`&mut`, and no thread has a `&mut` to a shared value. Nothing here refers to the model.
-/
namespace Blake2.Spec

/-- How many values of each kind there are. -/
structure Sizes where
  params : Nat
  states : Nat
  jobs : Nat
  hashes : Nat
  treeParams : Nat
  treeStates : Nat

/-- The number of values in a world. -/
def World.sizes (w : World) : Sizes :=
  ⟨w.params.length, w.states.length, w.jobs.length, w.hashes.length, w.treeParams.length, w.treeStates.length⟩

/-- The states an operation takes by `&mut`. -/
def Op.borrowsMut {π : Type} : Op π → List Nat
  | .update i _ => [i]
  | .updateMany jobs => jobs.map Prod.fst
  | .write i _ => [i]
  | .flush i => [i]
  | .setLastNode i _ => [i]
  | _ => []

/-- The tree states an operation takes by `&mut`. -/
def POp.borrowsMut {π : Type} : POp π → List Nat
  | .update i _ => [i]
  | .write i _ => [i]
  | .flush i => [i]
  | _ => []

/-- The call takes by `&mut` only values other than the first `n` of each kind: those that are shared. It may use these by `&`.
No method of `Hash` takes `&mut self`. -/
def ApiCall.LeavesAlone {π : Type} (n : Sizes) : ApiCall π → Prop
  | .set i _ => n.params ≤ i
  | .forcePortable i => n.params ≤ i
  | .onStates op => ∀ i ∈ op.borrowsMut, n.states ≤ i
  | .hashMany is => ∀ i ∈ is, n.jobs ≤ i
  | .setTree i _ => n.treeParams ≤ i
  | .forcePortableTree i => n.treeParams ≤ i
  | .onTreeStates op => ∀ i ∈ op.borrowsMut, n.treeStates ≤ i
  | _ => True

/-- The calls thread `t` makes, in order, in a schedule of calls of several threads. -/
def callsOf {π : Type} (t : Nat) (sched : List (Nat × ApiCall π)) : List (ApiCall π) :=
  (sched.filter fun s => s.1 = t).map Prod.snd

end Blake2.Spec
