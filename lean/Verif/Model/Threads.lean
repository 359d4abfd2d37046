import Verif.ThreadSpec
import Verif.Model.World
/-!
# Threads

Several threads run programs over the public API on the model. Some values are shared; a thread sees the shared values, and after
them its own. Every call works on the memory the thread sees, and whatever it leaves there is written back, also to the shared
values: that these do not change is a theorem, not a definition. A call is one step: the crates have no locks, atomics or
statics of their own, and calls of two threads touch the same value only if both take it by `&`. A thread that panics is dead;
the others go on. Client side; models no line of /repo but through `ApiCall.exec`.
-/
namespace Blake2
open Spec

/-- Two stores, one after the other. Client side; models no line of /repo. -/
def Mem.append {a : Alg} (m n : Mem a) : Mem a :=
  ⟨m.params ++ n.params, m.states ++ n.states, m.jobs ++ n.jobs, m.hashes ++ n.hashes, m.treeParams ++ n.treeParams,
    m.treeStates ++ n.treeStates⟩

/-- The number of values in a store. Client side; models no line of /repo. -/
def Mem.sizes {a : Alg} (m : Mem a) : Sizes :=
  ⟨m.params.length, m.states.length, m.jobs.length, m.hashes.length, m.treeParams.length, m.treeStates.length⟩

/-- The first values of each kind. Client side; models no line of /repo. -/
def Mem.take {a : Alg} (n : Sizes) (m : Mem a) : Mem a :=
  ⟨m.params.take n.params, m.states.take n.states, m.jobs.take n.jobs, m.hashes.take n.hashes,
    m.treeParams.take n.treeParams, m.treeStates.take n.treeStates⟩

/-- All but the first values of each kind. Client side; models no line of /repo. -/
def Mem.drop {a : Alg} (n : Sizes) (m : Mem a) : Mem a :=
  ⟨m.params.drop n.params, m.states.drop n.states, m.jobs.drop n.jobs, m.hashes.drop n.hashes,
    m.treeParams.drop n.treeParams, m.treeStates.drop n.treeStates⟩

/-- A process with threads: the shared values, and for every thread its own values and what it has been told, or the fault it has
died of. Client side; models no line of /repo. -/
structure Threads (a : Alg) where
  shared : Mem a
  thread : Nat → Res (Mem a × List Answer)

/-- Thread `t` makes a call. Client side; models no line of /repo. -/
def Threads.step {a : Alg} (dbg : Bool) (T : Threads a) (s : Nat × ApiCall Platform) : Threads a :=
  match T.thread s.1 with
  | .error _ => T
  | .ok (m, os) =>
    match s.2.exec dbg (T.shared.append m) with
    | .error f => { T with thread := fun u => if u = s.1 then .error f else T.thread u }
    | .ok (m', o) =>
      { shared := m'.take T.shared.sizes
        thread := fun u => if u = s.1 then .ok (m'.drop T.shared.sizes, os ++ [o]) else T.thread u }

/-- The calls of several threads, interleaved in any way. Client side; models no line of /repo. -/
def Threads.run {a : Alg} (dbg : Bool) (T : Threads a) (sched : List (Nat × ApiCall Platform)) : Threads a :=
  sched.foldl (Threads.step dbg) T

end Blake2
