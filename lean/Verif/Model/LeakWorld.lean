import Verif.Model.Leak
import Verif.Model.World
/-!
# Programs over the whole API, with the log of what they reveal

`Verif/Model/World.lean` with the functions of `Verif/Model/Leak.lean`: every test and every position touched is logged.
-/
namespace Blake2
open Spec Leaky

/-- Formatting. Rust's `core::fmt` is not modelled: it is taken to reveal the whole text, and no more. -/
def revealText (t : String) : Leaky Unit := ⟨t.toList.map fun c => .arm c.toNat, .ok ()⟩

/-- `Hash::as_array`. blake2b/src/lib.rs 597-600, blake2s/src/lib.rs 589-592. -/
def Hash.asArrayL {a : Alg} (dbg : Bool) (h : Hash a) : Leaky (List Byte) :=
  branch ((dbg && !(h.len.toNat == a.outbytes)) = true) (fault .panic) (pure h.bytes)

/-- `impl Debug for Hash`. blake2b/src/lib.rs 656-660, blake2s/src/lib.rs 648-652. -/
def Hash.debugFmtL {a : Alg} (h : Hash a) : Leaky String := do
  let hex ← h.toHexL
  let t := "Hash(0x" ++ String.ofList hex ++ ")"
  revealText t
  pure t

/-- `impl Debug for State`. blake2b/src/lib.rs 558-569, blake2s/src/lib.rs 550-561. -/
def State.debugFmtL {a : Alg} (dbg : Bool) (s : State a) : Leaky String := do
  let _ ← s.getCountL dbg
  let t ← (⟨[], s.debugFmt dbg⟩ : Leaky String)
  revealText t
  pure t

/-- `impl Debug for State` of the tree variants. blake2b/src/blake2bp.rs 426-435, blake2s/src/blake2sp.rs 433-442. -/
def PState.debugFmtL {a : Alg} (dbg : Bool) (s : PState a) : Leaky String := do
  let _ ← s.getCountL dbg
  let t ← (⟨[], s.debugFmt dbg⟩ : Leaky String)
  revealText t
  pure t

/-- Perform one call, as `Spec.ApiCall.exec` does. -/
def Spec.ApiCall.execL {a : Alg} (dbg : Bool) (m : Mem a) : ApiCall Platform → Leaky (Mem a × Answer)
  | .newParams plat => pure ({ m with params := m.params ++ [Params.new a plat] }, .done)
  | .cloneParams i => do
    let p ← getStateL m.params i
    pure ({ m with params := m.params ++ [p] }, .done)
  | .set i s => do
    let p ← getStateL m.params i
    let p ← s.runL p
    pure ({ m with params := m.params.set i p }, .done)
  | .forcePortable i => do
    let p ← getStateL m.params i
    pure ({ m with params := m.params.set i p.forcePortable }, .done)
  | .hash i x => do
    let p ← getStateL m.params i
    let h ← p.hashL x
    pure ({ m with hashes := m.hashes ++ [h] }, .done)
  | .toState i => do
    let p ← getStateL m.params i
    let s ← State.withParamsL p
    pure ({ m with states := m.states ++ [s] }, .done)
  | .debugParams i => do
    let p ← getStateL m.params i
    revealText p.debugFmt
    pure (m, .text p.debugFmt)
  | .oneShot plat x => do
    let h ← (Params.new a plat).hashL x
    pure ({ m with hashes := m.hashes ++ [h] }, .done)
  | .newState plat => do
    let s ← State.withParamsL (Params.new a plat)
    pure ({ m with states := m.states ++ [s] }, .done)
  | .onStates op => do
    let (ss, o) ← op.execL dbg m.states
    pure ({ m with states := ss }, .plain o)
  | .finalize i => do
    let s ← getStateL m.states i
    let h ← s.finalizeL
    pure ({ m with hashes := m.hashes ++ [h] }, .done)
  | .debugState i => do
    let s ← getStateL m.states i
    let t ← s.debugFmtL dbg
    pure (m, .text t)
  | .newJob i x => do
    let p ← getStateL m.params i
    let j ← HashManyJob.newL p x
    pure ({ m with jobs := m.jobs ++ [j] }, .done)
  | .cloneJob i => do
    let j ← getStateL m.jobs i
    pure ({ m with jobs := m.jobs ++ [j] }, .done)
  | .hashMany is => do
    let pick ← Leaky.mapList (getStateL m.jobs) is
    let out ← hashManyL pick
    pure ({ m with jobs := (is.zip out).foldl (fun js p => js.set p.1 p.2) m.jobs }, .done)
  | .toHash i => do
    let j ← getStateL m.jobs i
    let h ← j.toHashL dbg
    pure ({ m with hashes := m.hashes ++ [h] }, .done)
  | .debugJob i => do
    let j ← getStateL m.jobs i
    revealText j.debugFmt
    pure (m, .text j.debugFmt)
  | .ofArray d => pure ({ m with hashes := m.hashes ++ [Hash.ofArray d] }, .done)
  | .asBytes i => do
    let h ← getStateL m.hashes i
    let d ← h.asBytesL
    pure (m, .plain (.digest d))
  | .asArray i => do
    let h ← getStateL m.hashes i
    let d ← h.asArrayL dbg
    pure (m, .array d)
  | .toHex i => do
    let h ← getStateL m.hashes i
    let t ← h.toHexL
    pure (m, .text (String.ofList t))
  | .eqHash i j => do
    let h ← getStateL m.hashes i
    let k ← getStateL m.hashes j
    let b ← h.eqHashL k
    pure (m, .bool b)
  | .eqBytes i x => do
    let h ← getStateL m.hashes i
    let b ← h.eqSliceL x
    pure (m, .bool b)
  | .debugHash i => do
    let h ← getStateL m.hashes i
    let t ← h.debugFmtL
    pure (m, .text t)
  | .newTree plat => pure ({ m with treeParams := m.treeParams ++ [PParams.new a plat] }, .done)
  | .cloneTree i => do
    let p ← getStateL m.treeParams i
    pure ({ m with treeParams := m.treeParams ++ [p] }, .done)
  | .setTree i s => do
    let p ← getStateL m.treeParams i
    let p ← s.runL p
    pure ({ m with treeParams := m.treeParams.set i p }, .done)
  | .forcePortableTree i => do
    let p ← getStateL m.treeParams i
    pure ({ m with treeParams := m.treeParams.set i p.forcePortable }, .done)
  | .hashTree i x => do
    let p ← getStateL m.treeParams i
    let h ← p.hashL x
    pure ({ m with hashes := m.hashes ++ [h] }, .done)
  | .toTreeState i => do
    let p ← getStateL m.treeParams i
    let s ← PState.withParamsL p
    pure ({ m with treeStates := m.treeStates ++ [s] }, .done)
  | .debugTree i => do
    let p ← getStateL m.treeParams i
    revealText p.debugFmt
    pure (m, .text p.debugFmt)
  | .oneShotTree plat x => do
    let h ← (PParams.new a plat).hashL x
    pure ({ m with hashes := m.hashes ++ [h] }, .done)
  | .newTreeState plat => do
    let s ← PState.withParamsL (PParams.new a plat)
    pure ({ m with treeStates := m.treeStates ++ [s] }, .done)
  | .onTreeStates op => do
    let (ss, o) ← op.execL dbg m.treeStates
    pure ({ m with treeStates := ss }, .plain o)
  | .finalizeTree i => do
    let s ← getStateL m.treeStates i
    let h ← s.finalizeL
    pure ({ m with hashes := m.hashes ++ [h] }, .done)
  | .debugTreeState i => do
    let s ← getStateL m.treeStates i
    let t ← s.debugFmtL dbg
    pure (m, .text t)

/-- Run a program. Client side; models no line of /repo. -/
def Mem.runL {a : Alg} (dbg : Bool) : Mem a → List (ApiCall Platform) → Leaky (Mem a × List Answer)
  | m, [] => pure (m, [])
  | m, c :: cs => do
    let (m, o) ← c.execL dbg m
    let (m, os) ← Mem.runL dbg m cs
    pure (m, o :: os)

end Blake2
