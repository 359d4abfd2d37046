import Verif.Model.Api
/-!
# Model of the tree hash written with the sequential API

The test modules of the tree variants contain a reference implementation of BLAKE2bp (BLAKE2sp) that is a client of the
sequential API: blake2b/src/blake2bp.rs 490-517, blake2s/src/blake2sp.rs 497-524. The tests compare it with the real one on
63 lengths.
-/
namespace Blake2
variable {a : Alg}

/-- `input.chunks(n)` of the standard library: pieces of `n` bytes, the last possibly shorter, none empty. Used at
blake2b/src/blake2bp.rs 503. -/
def chunksOf (n : Nat) (input : List Byte) : List (List Byte) :=
  (List.range ((input.length + n - 1) / n)).map fun j => (input.drop (j * n)).take n

/-- The leaves: blake2b/src/blake2bp.rs 491-501 (blake2s/src/blake2sp.rs 498-508). -/
def referenceLeaves (a : Alg) (plat : Platform) : Res (List (State a)) :=
  (List.range (parDegree a)).mapM fun i => do
    let p ← (Params.new a plat).build
      [.fanout (BitVec.ofNat 8 (parDegree a)), .maxDepth 2, .nodeOffset (BitVec.ofNat 64 i), .innerHashLength a.outbytes]
    .ok p.toState

/-- The root: blake2b/src/blake2bp.rs 506-512 (blake2s/src/blake2sp.rs 513-519). -/
def referenceRoot (a : Alg) (plat : Platform) : Res (State a) := do
  let p ← (Params.new a plat).build
    [.fanout (BitVec.ofNat 8 (parDegree a)), .maxDepth 2, .nodeDepth 1, .innerHashLength a.outbytes, .lastNode true]
  .ok p.toState

/-- `for (i, chunk) in input.chunks(BLOCKBYTES).enumerate() { leaves[i % DEGREE].update(chunk) }`, from the chunk numbered
`i`. blake2b/src/blake2bp.rs 503-505 (blake2s/src/blake2sp.rs 510-512). -/
def referenceFeed : Nat → List (List Byte) → List (State a) → Res (List (State a))
  | _, [], leaves => .ok leaves
  | i, chunk :: chunks, leaves => do
    let s ← getState leaves (i % parDegree a)
    let s ← s.update chunk
    referenceFeed (i + 1) chunks (leaves.set (i % parDegree a) s)

/-- `blake2bp_reference`, `blake2sp_reference`. blake2b/src/blake2bp.rs 490-517 (blake2s/src/blake2sp.rs 497-524). -/
def referenceP (a : Alg) (plat : Platform) (input : List Byte) : Res (Hash a) := do
  let leaves ← referenceLeaves a plat
  let last ← getState leaves (parDegree a - 1)
  let leaves := leaves.set (parDegree a - 1) (last.setLastNode true)
  let leaves ← referenceFeed 0 (chunksOf a.bb input) leaves
  let root ← referenceRoot a plat
  let root ← leaves.foldlM (fun root leaf => do
    let h ← leaf.finalize
    let d ← h.asBytes
    root.update d) root
  root.finalize

end Blake2
