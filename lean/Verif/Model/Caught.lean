import Verif.CaughtSpec
import Verif.Model.World
import Verif.Model.Unwind
import Verif.Model.InPlace
/-!
# Programs that catch panics, run on the model

`Verif/Model/World.lean` ends at a panic. Here the client goes on, with what the call that panicked left in memory.
-/
namespace Blake2
open Spec

/-- What a call that panicked leaves. A builder method updates its `Params` in place, statement by statement (`Setter.inPlace`,
`PSetter.inPlace`). A method that takes `&self`, or makes a new value, leaves what there was: `State::count`
(blake2b/src/lib.rs 519-525), `HashManyJob::to_hash` (many.rs 326-332), `Hash::as_array` (lib.rs 598-601), the `Debug` impls, and so on.
For methods that take `&mut self` and never panic no memory is given: that they were reached here would be a fault. -/
def Spec.ApiCall.left {a : Alg} (m : Mem a) : ApiCall Platform → Res (Mem a)
  | .set i s => do
    let p ← getState m.params i
    .ok { m with params := m.params.set i (s.inPlace p).2 }
  | .setTree i s => do
    let p ← getState m.treeParams i
    .ok { m with treeParams := m.treeParams.set i (s.inPlace p).2 }
  | .onStates (.update _ _) => .error .panic
  | .onStates (.updateMany _) => .error .panic
  | .onStates (.write _ _) => .error .panic
  | .onStates (.flush _) => .error .panic
  | .onStates (.setLastNode _ _) => .error .panic
  | .onTreeStates (.update _ _) => .error .panic
  | .onTreeStates (.write _ _) => .error .panic
  | .onTreeStates (.flush _) => .error .panic
  | .hashMany _ => .error .panic
  | .forcePortable _ => .error .panic
  | .forcePortableTree _ => .error .panic
  | _ => .ok m

/-- Make an attempt. `none`: a panic was caught. Client side (Rust's `std::panic::catch_unwind`); the calls are those of
`ApiCall.exec`, and `update_many` (blake2b/src/many.rs 213-264) and `hash_many` (386-419) with an iterator that panics. -/
def Spec.Attempt.exec {a : Alg} (dbg : Bool) (m : Mem a) : Attempt Platform → Res (Mem a × Option Answer)
  | .call c =>
    match c.exec dbg m with
    | .ok (m, o) => .ok (m, some o)
    | .error .panic => do
      let m ← c.left m
      .ok (m, none)
    | .error e => .error e
  | .updateManyPanics jobs => do
    let pairs ← jobs.mapM fun j => do
      let s ← getState m.states j.1
      .ok (s, j.2)
    match ← updateManyP true pairs with
    | .returned _ => .error .panic
    | .unwound out => .ok ({ m with states := (jobs.zip out).foldl (fun ss p => ss.set p.1.1 p.2) m.states }, none)
  | .hashManyPanics is => do
    let pick ← is.mapM (getState m.jobs)
    match ← hashManyP true pick with
    | .returned _ => .error .panic
    | .unwound out => .ok ({ m with jobs := (is.zip out).foldl (fun js p => js.set p.1 p.2) m.jobs }, none)

/-- Run a program that catches all panics. Client side; models no line of /repo. -/
def Mem.attempts {a : Alg} (dbg : Bool) : Mem a → List (Attempt Platform) → Res (Mem a × List (Option Answer))
  | m, [] => .ok (m, [])
  | m, t :: ts => do
    let (m, o) ← t.exec dbg m
    let (m, os) ← Mem.attempts dbg m ts
    .ok (m, o :: os)

end Blake2
