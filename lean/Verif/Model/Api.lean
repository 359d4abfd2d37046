import Verif.ApiSpec
import Verif.Model.Par
/-! # Sequences of builder calls, run on the model -/
namespace Blake2

/-- The model function behind each builder method of `Params`: blake2b/src/lib.rs 238-339, blake2s/src/lib.rs 229-331. -/
def Spec.Setter.run {a : Alg} (p : Params a) : Spec.Setter → Res (Params a)
  | .hashLength n => p.setHashLength n
  | .key k => p.setKey k
  | .salt s => p.setSalt s
  | .personal x => p.setPersonal x
  | .fanout n => p.setFanout n
  | .maxDepth n => p.setMaxDepth n
  | .maxLeafLength n => p.setMaxLeafLength n
  | .nodeOffset n => p.setNodeOffset n
  | .nodeDepth n => p.setNodeDepth n
  | .innerHashLength n => p.setInnerHashLength n
  | .lastNode b => p.setLastNode b

/-- Run a sequence of builder calls.
A client's chain of the builder calls of blake2b/src/lib.rs 234-340, blake2s/src/lib.rs 226-331. -/
def Params.build {a : Alg} (p : Params a) (calls : List Spec.Setter) : Res (Params a) :=
  calls.foldlM Spec.Setter.run p

/-- The model function behind each builder method of `blake2bp::Params` / `blake2sp::Params`: blake2bp.rs 161-179. -/
def Spec.PSetter.run {a : Alg} (p : PParams a) : Spec.PSetter → Res (PParams a)
  | .hashLength n => p.setHashLength n
  | .key k => p.setKey k

/-- Run a sequence of builder calls. A client's chain of the builder calls of blake2b/src/blake2bp.rs 159-179. -/
def PParams.build {a : Alg} (p : PParams a) (calls : List Spec.PSetter) : Res (PParams a) :=
  calls.foldlM Spec.PSetter.run p

/-- A state a client holds. Asking for one that does not exist is a fault of the client, modelled as a panic.
Client side; models no line of /repo. -/
def getState {S : Type} (ss : List S) (i : Nat) : Res S :=
  match ss[i]? with
  | some s => .ok s
  | none => .error .panic

/-- `std::io::Write::write_all` (standard library, not in /repo): write what is left until nothing is left; a write of zero
bytes is an error (here `none`). Every iteration writes at least one byte, so `buf.length` iterations suffice; running out of
them is `Fault.diverge`. It calls the `write` of blake2b/src/lib.rs 547-556. -/
def writeAll {S : Type} (write : S → List Byte → Res (S × Nat)) : Nat → S → List Byte → Res (Option S)
  | _, s, [] => .ok (some s)
  | 0, _, _ => .error .diverge
  | fuel + 1, s, buf => do
    let (s, n) ← write s buf
    if n = 0 then
      .ok none
    else do
      let rest ← sliceFrom buf n
      writeAll write fuel s rest

/-- `std::io::copy` from a reader that delivers the chunks `chunks` (standard library, not in /repo): `write_all` of every
chunk. It calls the `write` of blake2b/src/lib.rs 547-556. -/
def ioCopy {S : Type} (write : S → List Byte → Res (S × Nat)) : S → List (List Byte) → Res (Option S)
  | s, [] => .ok (some s)
  | s, c :: cs => do
    match ← writeAll write c.length s c with
    | none => .ok none
    | some s => ioCopy write s cs

/-- Perform one operation of a history on a population of states. Every operation calls the model of the Rust function of
the same name; `clone` copies the value (lib.rs 389, `#[derive(Clone)]`). -/
def Spec.Op.exec {a : Alg} (dbg : Bool) (ss : List (State a)) : Spec.Op Platform → Res (List (State a) × Spec.Obs)
  | .create plat calls => do
    let p ← (Params.new a plat).build calls
    .ok (ss ++ [p.toState], .done)
  | .clone i => do
    let s ← getState ss i
    .ok (ss ++ [s], .done)
  | .update i x => do
    let s ← getState ss i
    let s ← s.update x
    .ok (ss.set i s, .done)
  | .updateMany jobs => do
    let pairs ← jobs.mapM fun j => do
      let s ← getState ss j.1
      .ok (s, j.2)
    let out ← Blake2.updateMany pairs
    .ok ((jobs.zip out).foldl (fun ss p => ss.set p.1.1 p.2) ss, .done)
  | .write i x => do
    let s ← getState ss i
    let (s, n) ← s.write x
    .ok (ss.set i s, .written n)
  | .flush i => do
    let s ← getState ss i
    let s ← s.flush
    .ok (ss.set i s, .done)
  | .setLastNode i b => do
    let s ← getState ss i
    .ok (ss.set i (s.setLastNode b), .done)
  | .finalize i => do
    let s ← getState ss i
    let h ← s.finalize
    let d ← h.asBytes
    .ok (ss, .digest d)
  | .count i => do
    let s ← getState ss i
    let n ← s.getCount dbg
    .ok (ss, .count n.toNat)

/-- Perform a history. Client side; models no line of /repo. -/
def execAll {a : Alg} (dbg : Bool) : List (State a) → List (Spec.Op Platform) → Res (List (State a) × List Spec.Obs)
  | ss, [] => .ok (ss, [])
  | ss, op :: ops => do
    let (ss, o) ← op.exec dbg ss
    let (ss, os) ← execAll dbg ss ops
    .ok (ss, o :: os)

/-- Perform one operation on a population of `blake2bp` / `blake2sp` states. -/
def Spec.POp.exec {a : Alg} (dbg : Bool) (ss : List (PState a)) : Spec.POp Platform → Res (List (PState a) × Spec.Obs)
  | .create plat calls => do
    let p ← (PParams.new a plat).build calls
    let s ← p.toState
    .ok (ss ++ [s], .done)
  | .clone i => do
    let s ← getState ss i
    .ok (ss ++ [s], .done)
  | .update i x => do
    let s ← getState ss i
    let s ← s.update x
    .ok (ss.set i s, .done)
  | .write i x => do
    let s ← getState ss i
    let (s, n) ← s.write x
    .ok (ss.set i s, .written n)
  | .flush i => do
    let s ← getState ss i
    let s ← s.flush
    .ok (ss.set i s, .done)
  | .finalize i => do
    let s ← getState ss i
    let h ← s.finalize
    let d ← h.asBytes
    .ok (ss, .digest d)
  | .count i => do
    let s ← getState ss i
    let n ← s.getCount dbg
    .ok (ss, .count n.toNat)

/-- Perform a history. Client side; models no line of /repo. -/
def pexecAll {a : Alg} (dbg : Bool) : List (PState a) → List (Spec.POp Platform) → Res (List (PState a) × List Spec.Obs)
  | ss, [] => .ok (ss, [])
  | ss, op :: ops => do
    let (ss, o) ← op.exec dbg ss
    let (ss, os) ← pexecAll dbg ss ops
    .ok (ss, o :: os)

/-- A state some client can hold: it occurs after some history of operations.
The fields are private (blake2b/src/lib.rs 388-398), so there is no other way to get one. -/
def Reachable {a : Alg} (s : State a) : Prop :=
  ∃ dbg ops ss os, Spec.ValidHistory a dbg [] ops ∧ execAll dbg [] ops = .ok (ss, os) ∧ s ∈ ss

/-- A tree state some client can hold. The fields are private (blake2b/src/blake2bp.rs 217-229). -/
def PReachable {a : Alg} (s : PState a) : Prop :=
  ∃ dbg ops ss os, Spec.ValidPHistory a dbg [] ops ∧ pexecAll dbg [] ops = .ok (ss, os) ∧ s ∈ ss

/-- Parameters some client can hold. The fields are private (blake2b/src/lib.rs 145-160). -/
def Built {a : Alg} (p : Params a) : Prop := ∃ plat calls, (Params.new a plat).build calls = .ok p

/-- A `HashManyJob` some client can hold: fresh, or out of a `hash_many` over such jobs.
The fields are private (blake2b/src/many.rs 272-282). -/
inductive JobReachable {a : Alg} : HashManyJob a → Prop
  | new (p : Params a) (msg : List Byte) (j : HashManyJob a) : Built p → HashManyJob.new p msg = .ok j → JobReachable j
  | run (jobs out : List (HashManyJob a)) (j : HashManyJob a) :
      (∀ k ∈ jobs, JobReachable k) → hashMany jobs = .ok out → j ∈ out → JobReachable j

/-- A `Hash` some client can hold. (`Hash` is `Copy`; its fields are private.). blake2b/src/lib.rs 580-584. -/
inductive HashReachable {a : Alg} : Hash a → Prop
  | params (p : Params a) (x : List Byte) (h : Hash a) : Built p → p.hash x = .ok h → HashReachable h
  | state (s : State a) (h : Hash a) : Reachable s → s.finalize = .ok h → HashReachable h
  | job (j : HashManyJob a) (dbg : Bool) (h : Hash a) : JobReachable j → j.toHash dbg = .ok h → HashReachable h
  | pparams (plat : Platform) (calls : List Spec.PSetter) (p : PParams a) (x : List Byte) (h : Hash a) :
      (PParams.new a plat).build calls = .ok p → p.hash x = .ok h → HashReachable h
  | pstate (s : PState a) (h : Hash a) : PReachable s → s.finalize = .ok h → HashReachable h
  | array (bytes : List Byte) : bytes.length = Spec.maxOut a → HashReachable (Hash.ofArray bytes)

/-- Call `hash_many` on the jobs numbered `idx` out of a population of jobs.
Client side; the call is to blake2b/src/many.rs 386-418. -/
def runBatch {a : Alg} (jobs : List (HashManyJob a)) (idx : List Nat) : Res (List (HashManyJob a)) := do
  let pick ← idx.mapM (getState jobs)
  let out ← hashMany pick
  .ok ((idx.zip out).foldl (fun js p => js.set p.1 p.2) jobs)

end Blake2
