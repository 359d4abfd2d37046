import Verif.ApiSpec
import Verif.EarlySpec
/-!
# Specification of programs over the whole public API

A client holds any number of values of every public type of one crate (`blake2b_simd` or `blake2s_simd`) and performs any
sequence of calls on them. This file says what each value means to the client, what every call does to it, and what it
returns. It is written from the documentation; nothing here refers to the model.
-/
namespace Blake2.Spec

/-- What a `HashManyJob` is to its client: parameters, input, and whether the result is there. -/
structure ManyJob where
  config : Config
  msg : List Byte
  finished : Bool

/-- A fresh job. With a key and no input there is nothing left to do: the key block is all the data. -/
def ManyJob.new (c : Config) (msg : List Byte) : ManyJob :=
  { config := c, msg := msg, finished := decide (c.key ≠ []) && decide (msg = []) }

/-- What a `Hash` is to its client: an array of `OUTBYTES` bytes, of which the first `len` are the digest. -/
structure Digest where
  array : List Byte
  len : Nat
deriving DecidableEq, Repr

/-- The digest proper. -/
def Digest.bytes (d : Digest) : List Byte := d.array.take d.len

/-- The result of hashing `msg` with parameters `c`. -/
def Digest.of (a : Alg) (c : Config) (msg : List Byte) : Digest := { array := hashFull a c msg, len := c.digestLength }

/-- What `to_hash` makes of a job that has still to be run. It says nothing about the input, and is no hash of anything. -/
def Digest.early (a : Alg) (c : Config) : Digest := { array := wordsToBytes a (startWords a c), len := c.digestLength }

/-- The result of `to_hash`: the hash if the job was run (or needed no running). -/
def ManyJob.result (a : Alg) (t : ManyJob) : Digest :=
  if t.finished then Digest.of a t.config t.msg else Digest.early a t.config

/-- The untruncated BLAKE2bp / BLAKE2sp hash: the root's output. Its first `n` bytes are `hashP a n key msg`. -/
def hashPFull (a : Alg) (n : Nat) (key msg : List Byte) : List Byte :=
  wordsToBytes a (process a (initH a (rootConfig a n key))
    ((List.range (degree a)).flatMap fun i => hashFull a (leafConfig a n key i) (leafMsg a msg i)) true)

/-- The result of tree hashing. -/
def Digest.ofTree (a : Alg) (c : PConfig) (msg : List Byte) : Digest :=
  { array := hashPFull a c.hashLength c.key msg, len := c.hashLength }

/-! ## What `Debug` prints -/

/-- A list of numbers. -/
def showBytes (l : List Byte) : String := "[" ++ String.intercalate ", " (l.map fun b => toString b.toNat) ++ "]"

/-- A boolean. -/
def showBool (b : Bool) : String := if b then "true" else "false"

/-- Parameters: the length of the key, but not the key. -/
def Config.text (a : Alg) (c : Config) : String :=
  "Params { hash_length: " ++ toString c.digestLength ++ ", key_length: " ++ toString c.key.length ++
  ", salt: " ++ showBytes (pad (saltBytes a) c.salt) ++ ", personal: " ++ showBytes (pad (saltBytes a) c.personal) ++
  ", fanout: " ++ toString c.fanout ++ ", max_depth: " ++ toString c.maxDepth ++
  ", max_leaf_length: " ++ toString c.leafLength ++ ", node_offset: " ++ toString c.nodeOffset ++
  ", node_depth: " ++ toString c.nodeDepth ++ ", inner_hash_length: " ++ toString c.innerLength ++
  ", last_node: " ++ showBool c.lastNode ++ " }"

/-- A state: the number of bytes fed, and two parameters. -/
def Hasher.text (a : Alg) (h : Hasher) : String :=
  "State { count: " ++ toString (h.msg.length % 2 ^ (2 * a.w)) ++ ", hash_length: " ++ toString h.config.digestLength ++
  ", last_node: " ++ showBool h.config.lastNode ++ " }"

/-- A job: the size of the key block, the length of the input, and two parameters. -/
def ManyJob.text (a : Alg) (t : ManyJob) : String :=
  "HashManyJob { count: " ++ toString (if t.config.key ≠ [] then bb a else 0) ++
  ", hash_length: " ++ toString t.config.digestLength ++ ", last_node: " ++ showBool t.config.lastNode ++
  ", input_len: " ++ toString t.msg.length ++ " }"

/-- A hash: its bytes, in hexadecimal. -/
def Digest.text (d : Digest) : String := "Hash(0x" ++ String.ofList (hexOf d.bytes) ++ ")"

/-- Tree parameters. -/
def PConfig.text (c : PConfig) : String :=
  "Params { hash_length: " ++ toString c.hashLength ++ ", key_length: " ++ toString c.key.length ++ " }"

/-- A tree state. -/
def PHasher.text (a : Alg) (h : PHasher) : String :=
  "State { count: " ++ toString (h.msg.length % 2 ^ (2 * a.w)) ++ ", hash_length: " ++ toString h.config.hashLength ++ " }"

/-! ## Programs -/

/-- Everything a client holds. Values are referred to by their kind and by the order of their creation. -/
structure World where
  params : List Config := []
  states : List Hasher := []
  jobs : List ManyJob := []
  hashes : List Digest := []
  treeParams : List PConfig := []
  treeStates : List PHasher := []

/-- A call. `π` is the type of platforms: `plat` is what feature detection finds when the value is created. Calls that return
a `Params`, `State`, `HashManyJob` or `Hash` add it to what the client holds. -/
inductive ApiCall (π : Type) where
  /-- `Params::new()` -/
  | newParams (plat : π)
  /-- `params.clone()` -/
  | cloneParams (i : Nat)
  /-- a builder method, called on existing parameters -/
  | set (i : Nat) (s : Setter)
  /-- `benchmarks::force_portable(&mut params)` -/
  | forcePortable (i : Nat)
  /-- `params.hash(x)` -/
  | hash (i : Nat) (x : List Byte)
  /-- `params.to_state()` -/
  | toState (i : Nat)
  /-- `format!("{:?}", params)` -/
  | debugParams (i : Nat)
  /-- `blake2b(x)`, `blake2s(x)` -/
  | oneShot (plat : π) (x : List Byte)
  /-- `State::new()` -/
  | newState (plat : π)
  /-- any operation on states that returns no `Hash`; also `finalize().as_bytes()` -/
  | onStates (op : Op π)
  /-- `state.finalize()` -/
  | finalize (i : Nat)
  /-- `format!("{:?}", state)` -/
  | debugState (i : Nat)
  /-- `HashManyJob::new(&params, x)` -/
  | newJob (i : Nat) (x : List Byte)
  /-- `job.clone()` -/
  | cloneJob (i : Nat)
  /-- `many::hash_many` on distinct jobs -/
  | hashMany (is : List Nat)
  /-- `job.to_hash()` -/
  | toHash (i : Nat)
  /-- `format!("{:?}", job)` -/
  | debugJob (i : Nat)
  /-- `Hash::from(array)` -/
  | ofArray (array : List Byte)
  /-- `hash.as_bytes()`, `hash.as_ref()` -/
  | asBytes (i : Nat)
  /-- `hash.as_array()` -/
  | asArray (i : Nat)
  /-- `hash.to_hex()` -/
  | toHex (i : Nat)
  /-- `hash == hash` -/
  | eqHash (i j : Nat)
  /-- `hash == *bytes` -/
  | eqBytes (i : Nat) (x : List Byte)
  /-- `format!("{:?}", hash)` -/
  | debugHash (i : Nat)
  /-- `blake2bp::Params::new()`, and so on -/
  | newTree (plat : π)
  | cloneTree (i : Nat)
  | setTree (i : Nat) (s : PSetter)
  | forcePortableTree (i : Nat)
  | hashTree (i : Nat) (x : List Byte)
  | toTreeState (i : Nat)
  | debugTree (i : Nat)
  | oneShotTree (plat : π) (x : List Byte)
  | newTreeState (plat : π)
  | onTreeStates (op : POp π)
  | finalizeTree (i : Nat)
  | debugTreeState (i : Nat)

/-- What a call returns to the client, apart from new values. -/
inductive Answer where
  | plain (o : Obs)
  | array (d : List Byte)
  | bool (b : Bool)
  | text (s : String)
deriving DecidableEq, Repr

/-- No answer. -/
def Answer.done : Answer := .plain .done

/-- What the client holds after a call. -/
def ApiCall.next {π : Type} (a : Alg) (w : World) : ApiCall π → World
  | .newParams _ => { w with params := w.params ++ [Config.default a] }
  | .cloneParams i => { w with params := w.params ++ w.params[i]?.toList }
  | .set i s => { w with params := w.params.modify i fun c => s.apply c }
  | .forcePortable _ => w
  | .hash i x => { w with hashes := w.hashes ++ (w.params[i]?.map fun c => Digest.of a c x).toList }
  | .toState i => { w with states := w.states ++ (w.params[i]?.map fun c => { config := c, msg := [] }).toList }
  | .debugParams _ => w
  | .oneShot _ x => { w with hashes := w.hashes ++ [Digest.of a (Config.default a) x] }
  | .newState _ => { w with states := w.states ++ [{ config := Config.default a, msg := [] }] }
  | .onStates op => { w with states := op.next a w.states }
  | .finalize i => { w with hashes := w.hashes ++ (w.states[i]?.map fun h => Digest.of a h.config h.msg).toList }
  | .debugState _ => w
  | .newJob i x => { w with jobs := w.jobs ++ (w.params[i]?.map fun c => ManyJob.new c x).toList }
  | .cloneJob i => { w with jobs := w.jobs ++ w.jobs[i]?.toList }
  | .hashMany is => { w with jobs := w.jobs.mapIdx fun k t => if k ∈ is then { t with finished := true } else t }
  | .toHash i => { w with hashes := w.hashes ++ (w.jobs[i]?.map fun t => t.result a).toList }
  | .debugJob _ => w
  | .ofArray d => { w with hashes := w.hashes ++ [{ array := d, len := maxOut a }] }
  | .asBytes _ => w
  | .asArray _ => w
  | .toHex _ => w
  | .eqHash _ _ => w
  | .eqBytes _ _ => w
  | .debugHash _ => w
  | .newTree _ => { w with treeParams := w.treeParams ++ [PConfig.default a] }
  | .cloneTree i => { w with treeParams := w.treeParams ++ w.treeParams[i]?.toList }
  | .setTree i s => { w with treeParams := w.treeParams.modify i fun c => s.apply c }
  | .forcePortableTree _ => w
  | .hashTree i x => { w with hashes := w.hashes ++ (w.treeParams[i]?.map fun c => Digest.ofTree a c x).toList }
  | .toTreeState i =>
    { w with treeStates := w.treeStates ++ (w.treeParams[i]?.map fun c => { config := c, msg := [] }).toList }
  | .debugTree _ => w
  | .oneShotTree _ x => { w with hashes := w.hashes ++ [Digest.ofTree a (PConfig.default a) x] }
  | .newTreeState _ => { w with treeStates := w.treeStates ++ [{ config := PConfig.default a, msg := [] }] }
  | .onTreeStates op => { w with treeStates := op.next a w.treeStates }
  | .finalizeTree i =>
    { w with hashes := w.hashes ++ (w.treeStates[i]?.map fun h => Digest.ofTree a h.config h.msg).toList }
  | .debugTreeState _ => w

/-- An answer about value `i`; a program that refers to no value of that number is not valid. -/
def about {α : Type} (l : List α) (i : Nat) (f : α → Answer) : Answer :=
  match l[i]? with
  | some x => f x
  | none => .done

/-- What the client is told. -/
def ApiCall.answer {π : Type} (a : Alg) (w : World) : ApiCall π → Answer
  | .debugParams i => about w.params i fun c => .text (c.text a)
  | .onStates op => .plain (op.answer a w.states)
  | .debugState i => about w.states i fun h => .text (h.text a)
  | .debugJob i => about w.jobs i fun t => .text (t.text a)
  | .asBytes i => about w.hashes i fun d => .plain (.digest d.bytes)
  | .asArray i => about w.hashes i fun d => .array d.array
  | .toHex i => about w.hashes i fun d => .text (String.ofList (hexOf d.bytes))
  | .eqHash i j => about w.hashes i fun d => about w.hashes j fun e => .bool (decide (d.bytes = e.bytes))
  | .eqBytes i x => about w.hashes i fun d => .bool (decide (d.bytes = x))
  | .debugHash i => about w.hashes i fun d => .text d.text
  | .debugTree i => about w.treeParams i fun c => .text c.text
  | .onTreeStates op => .plain (op.answer a w.treeStates)
  | .debugTreeState i => about w.treeStates i fun h => .text (h.text a)
  | _ => .done

/-- What Rust's type system guarantees of a call: it refers to values that exist, a batch borrows no value twice, and an
array has `OUTBYTES` bytes. -/
def ApiCall.WellTyped {π : Type} (a : Alg) (w : World) : ApiCall π → Prop
  | .newParams _ => True
  | .cloneParams i => i < w.params.length
  | .set i _ => i < w.params.length
  | .forcePortable i => i < w.params.length
  | .hash i _ => i < w.params.length
  | .toState i => i < w.params.length
  | .debugParams i => i < w.params.length
  | .oneShot _ _ => True
  | .newState _ => True
  | .onStates op => op.WellTyped w.states.length
  | .finalize i => i < w.states.length
  | .debugState i => i < w.states.length
  | .newJob i _ => i < w.params.length
  | .cloneJob i => i < w.jobs.length
  | .hashMany is => (∀ i ∈ is, i < w.jobs.length) ∧ is.Nodup
  | .toHash i => i < w.jobs.length
  | .debugJob i => i < w.jobs.length
  | .ofArray d => d.length = maxOut a
  | .asBytes i => i < w.hashes.length
  | .asArray i => i < w.hashes.length
  | .toHex i => i < w.hashes.length
  | .eqHash i j => i < w.hashes.length ∧ j < w.hashes.length
  | .eqBytes i _ => i < w.hashes.length
  | .debugHash i => i < w.hashes.length
  | .newTree _ => True
  | .cloneTree i => i < w.treeParams.length
  | .setTree i _ => i < w.treeParams.length
  | .forcePortableTree i => i < w.treeParams.length
  | .hashTree i _ => i < w.treeParams.length
  | .toTreeState i => i < w.treeParams.length
  | .debugTree i => i < w.treeParams.length
  | .oneShotTree _ _ => True
  | .newTreeState _ => True
  | .onTreeStates op => op.WellTyped w.treeStates.length
  | .finalizeTree i => i < w.treeStates.length
  | .debugTreeState i => i < w.treeStates.length

/-- The calls that panic: a builder argument out of its documented range, and in builds with debug assertions the
`to_hash` of a job that was not run, the `as_array` of a short hash, and a `count` that underflows (also inside `Debug`). -/
def ApiCall.Panics {π : Type} (a : Alg) (dbg : Bool) (w : World) : ApiCall π → Prop
  | .set _ s => ¬ s.InRange a
  | .setTree _ s => ¬ s.InRange a
  | .onStates op => op.MayPanic a dbg w.states
  | .onTreeStates op => op.MayPanic a dbg w.treeStates
  | .debugState i => dbg = true ∧ ∃ h ∈ w.states[i]?, CountUnderflow a (bb a) h.config.key h.msg
  | .debugTreeState i => dbg = true ∧ ∃ h ∈ w.treeStates[i]?, CountUnderflow a (degree a * bb a) h.config.key h.msg
  | .toHash i => dbg = true ∧ ∃ t ∈ w.jobs[i]?, t.finished = false
  | .asArray i => dbg = true ∧ ∃ d ∈ w.hashes[i]?, d.len < maxOut a
  | _ => False

/-- A call that is well-typed and does not panic. -/
def ApiCall.Valid {π : Type} (a : Alg) (dbg : Bool) (w : World) (c : ApiCall π) : Prop :=
  c.WellTyped a w ∧ ¬ c.Panics a dbg w

/-- What the client holds after a program. -/
def World.after {π : Type} (a : Alg) (w : World) (prog : List (ApiCall π)) : World := prog.foldl (ApiCall.next a) w

/-- What the client is told in the course of a program. -/
def World.answers {π : Type} (a : Alg) : World → List (ApiCall π) → List Answer
  | _, [] => []
  | w, c :: cs => c.answer a w :: World.answers a (c.next a w) cs

/-- Every call of the program is valid when its turn comes. -/
def World.ValidProgram {π : Type} (a : Alg) (dbg : Bool) : World → List (ApiCall π) → Prop
  | _, [] => True
  | w, c :: cs => c.Valid a dbg w ∧ World.ValidProgram a dbg (c.next a w) cs

/-- The same call, with other platforms detected. -/
def ApiCall.onPlatforms {π ρ : Type} (f : π → ρ) : ApiCall π → ApiCall ρ
  | .newParams p => .newParams (f p)
  | .cloneParams i => .cloneParams i
  | .set i s => .set i s
  | .forcePortable i => .forcePortable i
  | .hash i x => .hash i x
  | .toState i => .toState i
  | .debugParams i => .debugParams i
  | .oneShot p x => .oneShot (f p) x
  | .newState p => .newState (f p)
  | .onStates op => .onStates (op.onPlatforms f)
  | .finalize i => .finalize i
  | .debugState i => .debugState i
  | .newJob i x => .newJob i x
  | .cloneJob i => .cloneJob i
  | .hashMany is => .hashMany is
  | .toHash i => .toHash i
  | .debugJob i => .debugJob i
  | .ofArray d => .ofArray d
  | .asBytes i => .asBytes i
  | .asArray i => .asArray i
  | .toHex i => .toHex i
  | .eqHash i j => .eqHash i j
  | .eqBytes i x => .eqBytes i x
  | .debugHash i => .debugHash i
  | .newTree p => .newTree (f p)
  | .cloneTree i => .cloneTree i
  | .setTree i s => .setTree i s
  | .forcePortableTree i => .forcePortableTree i
  | .hashTree i x => .hashTree i x
  | .toTreeState i => .toTreeState i
  | .debugTree i => .debugTree i
  | .oneShotTree p x => .oneShotTree (f p) x
  | .newTreeState p => .newTreeState (f p)
  | .onTreeStates op => .onTreeStates (op.onPlatforms f)
  | .finalizeTree i => .finalizeTree i
  | .debugTreeState i => .debugTreeState i

/-! ## Validity of a program is decidable -/

instance {α : Type} (o : Option α) (P : α → Prop) [DecidablePred P] : Decidable (∃ x ∈ o, P x) :=
  match o with
  | none => isFalse (by simp)
  | some x => decidable_of_iff (P x) (by simp)

instance {α : Type} (o : Option α) (P : α → Prop) [DecidablePred P] : Decidable (∃ x, o = some x ∧ P x) :=
  match o with
  | none => isFalse (by simp)
  | some x => decidable_of_iff (P x) (by simp)

instance {π : Type} (a : Alg) (dbg : Bool) (hs : List Hasher) (op : Op π) : Decidable (op.MayPanic a dbg hs) := by
  cases op <;> unfold Op.MayPanic <;> infer_instance

instance {π : Type} (a : Alg) (dbg : Bool) (hs : List PHasher) (op : POp π) : Decidable (op.MayPanic a dbg hs) := by
  cases op <;> unfold POp.MayPanic <;> infer_instance

instance {π : Type} (a : Alg) (w : World) (c : ApiCall π) : Decidable (c.WellTyped a w) := by
  cases c <;> unfold ApiCall.WellTyped <;> infer_instance

instance {π : Type} (a : Alg) (dbg : Bool) (w : World) (c : ApiCall π) : Decidable (c.Panics a dbg w) := by
  cases c <;> unfold ApiCall.Panics <;> infer_instance

instance {π : Type} (a : Alg) (dbg : Bool) (w : World) (c : ApiCall π) : Decidable (c.Valid a dbg w) := by
  unfold ApiCall.Valid; infer_instance

instance decValidProgram {π : Type} (a : Alg) (dbg : Bool) :
    (w : World) → (prog : List (ApiCall π)) → Decidable (w.ValidProgram a dbg prog)
  | _, [] => isTrue trivial
  | w, c :: cs => @instDecidableAnd _ _ _ (decValidProgram a dbg (c.next a w) cs)

end Blake2.Spec
