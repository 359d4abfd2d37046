import Verif.WorldSpec
import Verif.Model.Api
/-!
# Programs over the whole public API, run on the model

Every call is carried out by the model of the Rust function of the same name; the functions and their places in /repo are
cited at their definitions in `Lib`, `Many` and `Par`. What is defined here is only the store in which the client keeps its
values.
-/
namespace Blake2
open Spec

/-- The values a client holds. Client side; models no line of /repo. -/
structure Mem (a : Alg) where
  params : List (Params a) := []
  states : List (State a) := []
  jobs : List (HashManyJob a) := []
  hashes : List (Hash a) := []
  treeParams : List (PParams a) := []
  treeStates : List (PState a) := []

/-- Perform one call. `clone` copies the value: `#[derive(Clone)]` at lib.rs 145, 388, many.rs 272, blake2bp.rs 69, 217.
`Hash::as_ref` (lib.rs 650-654, blake2s/src/lib.rs 642-646) is `as_bytes`. -/
def Spec.ApiCall.exec {a : Alg} (dbg : Bool) (m : Mem a) : ApiCall Platform → Res (Mem a × Answer)
  | .newParams plat => .ok ({ m with params := m.params ++ [Params.new a plat] }, .done)
  | .cloneParams i => do
    let p ← getState m.params i
    .ok ({ m with params := m.params ++ [p] }, .done)
  | .set i s => do
    let p ← getState m.params i
    let p ← s.run p
    .ok ({ m with params := m.params.set i p }, .done)
  | .forcePortable i => do
    let p ← getState m.params i
    .ok ({ m with params := m.params.set i p.forcePortable }, .done)
  | .hash i x => do
    let p ← getState m.params i
    let h ← p.hash x
    .ok ({ m with hashes := m.hashes ++ [h] }, .done)
  | .toState i => do
    let p ← getState m.params i
    .ok ({ m with states := m.states ++ [p.toState] }, .done)
  | .debugParams i => do
    let p ← getState m.params i
    .ok (m, .text p.debugFmt)
  | .oneShot plat x => do
    let h ← blake2 a plat x
    .ok ({ m with hashes := m.hashes ++ [h] }, .done)
  | .newState plat => .ok ({ m with states := m.states ++ [State.new a plat] }, .done)
  | .onStates op => do
    let (ss, o) ← op.exec dbg m.states
    .ok ({ m with states := ss }, .plain o)
  | .finalize i => do
    let s ← getState m.states i
    let h ← s.finalize
    .ok ({ m with hashes := m.hashes ++ [h] }, .done)
  | .debugState i => do
    let s ← getState m.states i
    let t ← s.debugFmt dbg
    .ok (m, .text t)
  | .newJob i x => do
    let p ← getState m.params i
    let j ← HashManyJob.new p x
    .ok ({ m with jobs := m.jobs ++ [j] }, .done)
  | .cloneJob i => do
    let j ← getState m.jobs i
    .ok ({ m with jobs := m.jobs ++ [j] }, .done)
  | .hashMany is => do
    let jobs ← runBatch m.jobs is
    .ok ({ m with jobs := jobs }, .done)
  | .toHash i => do
    let j ← getState m.jobs i
    let h ← j.toHash dbg
    .ok ({ m with hashes := m.hashes ++ [h] }, .done)
  | .debugJob i => do
    let j ← getState m.jobs i
    .ok (m, .text j.debugFmt)
  | .ofArray d => .ok ({ m with hashes := m.hashes ++ [Hash.ofArray d] }, .done)
  | .asBytes i => do
    let h ← getState m.hashes i
    let d ← h.asBytes
    .ok (m, .plain (.digest d))
  | .asArray i => do
    let h ← getState m.hashes i
    let d ← h.asArray dbg
    .ok (m, .array d)
  | .toHex i => do
    let h ← getState m.hashes i
    let t ← h.toHex
    .ok (m, .text (String.ofList t))
  | .eqHash i j => do
    let h ← getState m.hashes i
    let k ← getState m.hashes j
    let b ← h.eqHash k
    .ok (m, .bool b)
  | .eqBytes i x => do
    let h ← getState m.hashes i
    let b ← h.eqSlice x
    .ok (m, .bool b)
  | .debugHash i => do
    let h ← getState m.hashes i
    let t ← h.debugFmt
    .ok (m, .text t)
  | .newTree plat => .ok ({ m with treeParams := m.treeParams ++ [PParams.new a plat] }, .done)
  | .cloneTree i => do
    let p ← getState m.treeParams i
    .ok ({ m with treeParams := m.treeParams ++ [p] }, .done)
  | .setTree i s => do
    let p ← getState m.treeParams i
    let p ← s.run p
    .ok ({ m with treeParams := m.treeParams.set i p }, .done)
  | .forcePortableTree i => do
    let p ← getState m.treeParams i
    .ok ({ m with treeParams := m.treeParams.set i p.forcePortable }, .done)
  | .hashTree i x => do
    let p ← getState m.treeParams i
    let h ← p.hash x
    .ok ({ m with hashes := m.hashes ++ [h] }, .done)
  | .toTreeState i => do
    let p ← getState m.treeParams i
    let s ← p.toState
    .ok ({ m with treeStates := m.treeStates ++ [s] }, .done)
  | .debugTree i => do
    let p ← getState m.treeParams i
    .ok (m, .text p.debugFmt)
  | .oneShotTree plat x => do
    let h ← blake2p a plat x
    .ok ({ m with hashes := m.hashes ++ [h] }, .done)
  | .newTreeState plat => do
    let s ← PState.new a plat
    .ok ({ m with treeStates := m.treeStates ++ [s] }, .done)
  | .onTreeStates op => do
    let (ss, o) ← op.exec dbg m.treeStates
    .ok ({ m with treeStates := ss }, .plain o)
  | .finalizeTree i => do
    let s ← getState m.treeStates i
    let h ← s.finalize
    .ok ({ m with hashes := m.hashes ++ [h] }, .done)
  | .debugTreeState i => do
    let s ← getState m.treeStates i
    let t ← s.debugFmt dbg
    .ok (m, .text t)

/-- Run a program. Client side; models no line of /repo. -/
def Mem.run {a : Alg} (dbg : Bool) : Mem a → List (ApiCall Platform) → Res (Mem a × List Answer)
  | m, [] => .ok (m, [])
  | m, c :: cs => do
    let (m, o) ← c.exec dbg m
    let (m, os) ← Mem.run dbg m cs
    .ok (m, o :: os)

end Blake2
