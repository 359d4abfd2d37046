import Verif.Model.Trace
import Verif.ApiSpec
/-!
# What the log of compressions should be

The vocabulary of the theorems about the instrumented model (`Verif/Model/Trace.lean`).
-/
namespace Blake2

variable {a : Alg} {ι : Type}

/-- What a compression function must be given for a frame of the specification: the block, the counter in `2 * w` bits, and
all-ones words for the flags that are set. -/
def callOf (a : Alg) (fr : Spec.Frame) : Call a :=
  ⟨fr.block, BitVec.ofNat _ fr.counter, Spec.flag a fr.final, Spec.flag a fr.lastNode⟩

/-- The calls RFC 7693 prescribes for `data`, in order: every block once, each with the number of bytes up to its end, only
the last one flagged. -/
def rfcCalls (a : Alg) (data : List Byte) (lastNode : Bool) : List (Call a) := (Spec.frames a data lastNode).map (callOf a)

/-- The calls made on behalf of `who`, in order, whatever lanes of whatever passes they were made in. -/
def callsOf [DecidableEq ι] (who : ι) (log : List (Pass a ι)) : List (Call a) :=
  log.flatten.filterMap fun p => if p.1 = who then some p.2 else none

/-- What a call reveals besides the block. -/
structure Shape (a : Alg) where
  count : Count a
  lastBlock : Word a
  lastNode : Word a
deriving DecidableEq

/-- Forget the block. -/
def Call.shape (c : Call a) : Shape a := ⟨c.count, c.lastBlock, c.lastNode⟩

/-- Forget the blocks of a log. What is left: how many passes there are, how wide each is, who occupies its lanes, and the
counters and flags. -/
def shapes (log : List (Pass a ι)) : List (List (ι × Shape a)) := log.map fun p => p.map fun c => (c.1, c.2.shape)

/-! ## Histories -/

/-- The calls RFC 7693 prescribes for a hasher, should it be finalized now. -/
def Spec.Hasher.calls (a : Alg) (h : Spec.Hasher) : List (Call a) :=
  rfcCalls a (Spec.keyedData a h.config.key h.msg) h.config.lastNode

/-- What an operation on the hashers `hs` has to log.

A hasher must hold back the last block, because it may turn out to be the final one, so at any moment all of `h.calls` but the
last has been made. `finalize` has to add exactly that last call. Any other operation has to add to every hasher the calls
that the bytes fed to it make due, and nothing else. No pass may belong to anybody but the existing hashers, or serve one hasher
twice. -/
def Spec.Op.Logs {π : Type} (a : Alg) (hs : List Spec.Hasher) (op : Spec.Op π) (log : List (Pass a Nat)) : Prop :=
  (∀ i h h', hs[i]? = some h → (op.next a hs)[i]? = some h' →
    (h.calls a).dropLast ++ callsOf i log =
      match op with
      | .finalize j => if j = i then h.calls a else (h.calls a).dropLast
      | _ => (h'.calls a).dropLast) ∧
  ∀ p ∈ log, (p.map Prod.fst).Nodup ∧ ∀ c ∈ p, c.1 < hs.length

/-- Every operation of the history logs what it has to. -/
def LogsHistory {π : Type} (a : Alg) : List Spec.Hasher → List (Spec.Op π) → List (List (Pass a Nat)) → Prop
  | _, [], [] => True
  | hs, op :: ops, log :: logs => op.Logs a hs log ∧ LogsHistory a (op.next a hs) ops logs
  | _, _, _ => False

/-- Two operations that differ only in data: contents of keys, messages, salts and so on. The platform, the lengths of the
keys and of the inputs, the last-node flags and which states are used are the same. -/
def Spec.Op.Alike {π : Type} (a : Alg) : Spec.Op π → Spec.Op π → Prop
  | .create plat calls, .create plat' calls' => plat = plat' ∧
      (Spec.configOf a calls).key.length = (Spec.configOf a calls').key.length ∧
      (Spec.configOf a calls).lastNode = (Spec.configOf a calls').lastNode
  | .clone i, .clone j => i = j
  | .update i x, .update j y => i = j ∧ x.length = y.length
  | .updateMany js, .updateMany js' => js.map (fun j => (j.1, j.2.length)) = js'.map (fun j => (j.1, j.2.length))
  | .write i x, .write j y => i = j ∧ x.length = y.length
  | .flush i, .flush j => i = j
  | .setLastNode i b, .setLastNode j b' => i = j ∧ b = b'
  | .finalize i, .finalize j => i = j
  | .count i, .count j => i = j
  | _, _ => False

/-- Two histories of pairwise alike operations. -/
def AlikeHistory {π : Type} (a : Alg) : List (Spec.Op π) → List (Spec.Op π) → Prop
  | [], [] => True
  | op :: ops, op' :: ops' => op.Alike a op' ∧ AlikeHistory a ops ops'
  | _, _ => False

/-! ## Histories of the tree variants -/

/-- The calls prescribed for a node of the tree of a BLAKE2bp or BLAKE2sp hasher, should it be finalized now: leaf `i` hashes
its share of the message after the key block, the root (`none`) hashes the outputs of the leaves. The last leaf and the root are
last nodes. -/
def Spec.PHasher.calls (a : Alg) (h : Spec.PHasher) : Node a → List (Call a)
  | some i => rfcCalls a (Spec.keyedData a h.config.key (Spec.leafMsg a h.msg i)) (decide (i.val = Spec.degree a - 1))
  | none => rfcCalls a ((List.range (Spec.degree a)).flatMap fun i =>
      Spec.hashFull a (Spec.leafConfig a h.config.hashLength h.config.key i) (Spec.leafMsg a h.msg i)) true

/-- What an operation on the tree hashers `hs` has to log. `done` says how many calls have been made for every leaf of each
hasher before the operation, and `done'` after it.

The leaves of a hasher advance together, and only `update` and `write` advance them, by whatever amount; but the final call of a
leaf is never made by them and no leaf is ever more than two calls behind. `finalize` has to make the remaining calls of the
leaves and all calls of the root. Nothing else may be done. -/
def Spec.POp.Logs {π : Type} (a : Alg) (hs : List Spec.PHasher) (done : List Nat) (op : Spec.POp π) (done' : List Nat)
    (log : List (Pass a (Nat × Node a))) : Prop :=
  (match op with
    | .create _ _ => done' = done ++ [0]
    | .clone i => done' = done ++ done[i]?.toList
    | .update i _ => ∃ m, done' = done.modify i (· + m)
    | .write i _ => ∃ m, done' = done.modify i (· + m)
    | _ => done' = done) ∧
  (∀ (i : Nat) (h : Spec.PHasher) (k : Nat), (op.next a hs)[i]? = some h → done'[i]? = some k →
    ∀ leaf, k < (h.calls a (some leaf)).length ∧ (h.calls a (some leaf)).length ≤ k + 2) ∧
  (∀ (i : Nat) (h h' : Spec.PHasher) (k k' : Nat), hs[i]? = some h → (op.next a hs)[i]? = some h' → done[i]? = some k → done'[i]? = some k' →
    (∀ leaf, (h.calls a (some leaf)).take k ++ callsOf (i, some leaf) log =
      match op with
      | .finalize j => if j = i then h.calls a (some leaf) else (h.calls a (some leaf)).take k
      | _ => (h'.calls a (some leaf)).take k') ∧
    callsOf (i, none) log =
      match op with
      | .finalize j => if j = i then h.calls a none else []
      | _ => []) ∧
  ∀ p ∈ log, (p.map Prod.fst).Nodup ∧ ∀ c ∈ p, c.1.1 < hs.length

/-- Every operation of the history logs what it has to. -/
def LogsPHistory {π : Type} (a : Alg) :
    List Spec.PHasher → List Nat → List (Spec.POp π) → List (List (Pass a (Nat × Node a))) → Prop
  | _, _, [], [] => True
  | hs, done, op :: ops, log :: logs => ∃ done', op.Logs a hs done done' log ∧ LogsPHistory a (op.next a hs) done' ops logs
  | _, _, _, _ => False

/-- Two operations that differ only in data: contents of keys and messages. -/
def Spec.POp.Alike {π : Type} (a : Alg) : Spec.POp π → Spec.POp π → Prop
  | .create plat calls, .create plat' calls' => plat = plat' ∧
      (Spec.pconfigOf a calls).key.length = (Spec.pconfigOf a calls').key.length
  | .clone i, .clone j => i = j
  | .update i x, .update j y => i = j ∧ x.length = y.length
  | .write i x, .write j y => i = j ∧ x.length = y.length
  | .flush i, .flush j => i = j
  | .finalize i, .finalize j => i = j
  | .count i, .count j => i = j
  | _, _ => False

/-- Two histories of pairwise alike operations. -/
def AlikePHistory {π : Type} (a : Alg) : List (Spec.POp π) → List (Spec.POp π) → Prop
  | [], [] => True
  | op :: ops, op' :: ops' => op.Alike a op' ∧ AlikePHistory a ops ops'
  | _, _ => False

end Blake2
