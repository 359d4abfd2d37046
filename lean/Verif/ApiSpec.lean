import Verif.Spec
/-!
# Specification of the builder calls

What the documentation of `Params` says each call means, in terms of `Spec.Config`. Nothing here refers to the model.
-/
namespace Blake2.Spec

/-- A call of a `Params` builder method, with its argument. Integer arguments have the width of their Rust type;
`usize` arguments are unbounded. -/
inductive Setter where
  | hashLength (n : Nat)
  | key (k : List Byte)
  | salt (s : List Byte)
  | personal (p : List Byte)
  | fanout (n : BitVec 8)
  | maxDepth (n : BitVec 8)
  | maxLeafLength (n : BitVec 32)
  | nodeOffset (n : BitVec 64)
  | nodeDepth (n : BitVec 8)
  | innerHashLength (n : Nat)
  | lastNode (b : Bool)

/-- The documented ranges of the arguments. -/
def Setter.InRange (a : Alg) : Setter → Prop
  | .hashLength n => 1 ≤ n ∧ n ≤ maxOut a
  | .key k => k.length ≤ maxOut a
  | .salt s => s.length ≤ saltBytes a
  | .personal p => p.length ≤ saltBytes a
  | .nodeOffset n => n.toNat < 2 ^ (8 * nodeOffsetBytes a)
  | .innerHashLength n => n ≤ maxOut a
  | _ => True

instance (a : Alg) (c : Setter) : Decidable (c.InRange a) := by
  cases c <;> unfold Setter.InRange <;> infer_instance

/-- The documented effect: the call sets its parameter, replacing any earlier value, and touches no other. -/
def Setter.apply (c : Config) : Setter → Config
  | .hashLength n => { c with digestLength := n }
  | .key k => { c with key := k }
  | .salt s => { c with salt := s }
  | .personal p => { c with personal := p }
  | .fanout n => { c with fanout := n.toNat }
  | .maxDepth n => { c with maxDepth := n.toNat }
  | .maxLeafLength n => { c with leafLength := n.toNat }
  | .nodeOffset n => { c with nodeOffset := n.toNat }
  | .nodeDepth n => { c with nodeDepth := n.toNat }
  | .innerHashLength n => { c with innerLength := n }
  | .lastNode b => { c with lastNode := b }

/-- The parameters after a sequence of calls on a fresh `Params`. -/
def configOf (a : Alg) (calls : List Setter) : Config := calls.foldl Setter.apply (Config.default a)

/-- The builder methods. -/
inductive Method where
  | hashLength | key | salt | personal | fanout | maxDepth | maxLeafLength | nodeOffset | nodeDepth | innerHashLength | lastNode
deriving DecidableEq

/-- Which method a call is a call of. -/
def Setter.method : Setter → Method
  | .hashLength _ => .hashLength
  | .key _ => .key
  | .salt _ => .salt
  | .personal _ => .personal
  | .fanout _ => .fanout
  | .maxDepth _ => .maxDepth
  | .maxLeafLength _ => .maxLeafLength
  | .nodeOffset _ => .nodeOffset
  | .nodeDepth _ => .nodeDepth
  | .innerHashLength _ => .innerHashLength
  | .lastNode _ => .lastNode

/-- The last call of a method in a sequence of calls. -/
def lastCall (m : Method) (calls : List Setter) : Option Setter := calls.reverse.find? (·.method = m)

/-! ## The tree variants -/

/-- A call of a `blake2bp::Params` / `blake2sp::Params` builder method. -/
inductive PSetter where
  | hashLength (n : Nat)
  | key (k : List Byte)

/-- The documented ranges. -/
def PSetter.InRange (a : Alg) : PSetter → Prop
  | .hashLength n => 1 ≤ n ∧ n ≤ maxOut a
  | .key k => k.length ≤ maxOut a

instance (a : Alg) (c : PSetter) : Decidable (c.InRange a) := by
  cases c <;> unfold PSetter.InRange <;> infer_instance

/-- The parameters of the tree variants. -/
structure PConfig where
  hashLength : Nat
  key : List Byte
deriving DecidableEq, Repr

/-- Defaults: full length, no key. -/
def PConfig.default (a : Alg) : PConfig := { hashLength := maxOut a, key := [] }

/-- The documented effect of a call. -/
def PSetter.apply (c : PConfig) : PSetter → PConfig
  | .hashLength n => { c with hashLength := n }
  | .key k => { c with key := k }

/-- The parameters after a sequence of calls on a fresh `Params`. -/
def pconfigOf (a : Alg) (calls : List PSetter) : PConfig := calls.foldl PSetter.apply (PConfig.default a)

/-- The builder methods of the tree variants. -/
inductive PMethod where
  | hashLength | key
deriving DecidableEq

/-- Which method a call is a call of. -/
def PSetter.method : PSetter → PMethod
  | .hashLength _ => .hashLength
  | .key _ => .key

/-- The last call of a method in a sequence, if there is one. -/
def plastCall (m : PMethod) (calls : List PSetter) : Option PSetter := calls.reverse.find? (·.method = m)

/-! ## Histories of operations on a population of hashers

`π` is the type of platforms a state may be created for; nothing the client sees depends on it. -/

/-- What a hasher is to its client: its parameters and the bytes fed to it so far. -/
structure Hasher where
  config : Config
  msg : List Byte

/-- An operation. States are referred to by the order of their creation. -/
inductive Op (π : Type) where
  /-- `Params::new()`, builder calls, `to_state()` -/
  | create (plat : π) (calls : List Setter)
  /-- `state.clone()` -/
  | clone (i : Nat)
  | update (i : Nat) (x : List Byte)
  /-- `many::update_many` on distinct states -/
  | updateMany (jobs : List (Nat × List Byte))
  | write (i : Nat) (x : List Byte)
  | flush (i : Nat)
  | setLastNode (i : Nat) (b : Bool)
  | finalize (i : Nat)
  | count (i : Nat)

/-- What an operation returns to the client. -/
inductive Obs where
  | done
  /-- the bytes of a `Hash` -/
  | digest (d : List Byte)
  | count (n : Nat)
  /-- the `Ok(n)` of `write` -/
  | written (n : Nat)
deriving DecidableEq, Repr

/-- Feed bytes to a hasher. -/
def Hasher.feed (x : List Byte) (h : Hasher) : Hasher := { h with msg := h.msg ++ x }

/-- Change the last-node flag. -/
def Hasher.setLast (b : Bool) (h : Hasher) : Hasher := { h with config := { h.config with lastNode := b } }

/-- The same operation, asked of other platforms. -/
def Op.onPlatforms {π ρ : Type} (f : π → ρ) : Op π → Op ρ
  | .create plat calls => .create (f plat) calls
  | .clone i => .clone i
  | .update i x => .update i x
  | .updateMany jobs => .updateMany jobs
  | .write i x => .write i x
  | .flush i => .flush i
  | .setLastNode i b => .setLastNode i b
  | .finalize i => .finalize i
  | .count i => .count i

/-- Operations that only observe. -/
def Op.isQuery {π : Type} : Op π → Bool
  | .finalize _ => true
  | .count _ => true
  | _ => false

/-- Operations that are meant to change state `i`. -/
def Op.targets {π : Type} (i : Nat) : Op π → Bool
  | .update j _ => j == i
  | .updateMany jobs => jobs.any (·.1 == i)
  | .write j _ => j == i
  | .setLastNode j _ => j == i
  | _ => false

/-- The hashers after an operation. -/
def Op.next {π : Type} (a : Alg) (hs : List Hasher) : Op π → List Hasher
  | .create _ calls => hs ++ [{ config := configOf a calls, msg := [] }]
  | .clone i => hs ++ hs[i]?.toList
  | .update i x => hs.modify i (Hasher.feed x)
  | .updateMany jobs => jobs.foldl (fun hs j => hs.modify j.1 (Hasher.feed j.2)) hs
  | .write i x => hs.modify i (Hasher.feed x)
  | .flush _ => hs
  | .setLastNode i b => hs.modify i (Hasher.setLast b)
  | .finalize _ => hs
  | .count _ => hs

/-- What the client is told. Counts are numbers of the counter type, which has `2 * w` bits. -/
def Op.answer {π : Type} (a : Alg) (hs : List Hasher) : Op π → Obs
  | .finalize i => match hs[i]? with
    | some h => .digest (hash a h.config h.msg)
    | none => .done
  | .count i => match hs[i]? with
    | some h => .count (h.msg.length % 2 ^ (2 * a.w))
    | none => .done
  | .write _ x => .written x.length
  | _ => .done

/-- The counter also counts the `n` bytes of key blocks, if there is a key; this says that it has wrapped around to less than
that, so that subtracting them underflows. It takes more than `2 ^ (2 * w) - n` bytes of input. -/
def CountUnderflow (a : Alg) (n : Nat) (key msg : List Byte) : Prop := key ≠ [] ∧ (n + msg.length) % 2 ^ (2 * a.w) < n

instance (a : Alg) (n : Nat) (key msg : List Byte) : Decidable (CountUnderflow a n key msg) := by
  unfold CountUnderflow; infer_instance

/-- When an operation may be performed: arguments in range, states that exist, and in a batch no state twice (Rust's `&mut`
guarantees it). `dbg` tells whether overflow checks are compiled in, in which case `count` must not underflow. -/
def Op.Valid {π : Type} (a : Alg) (dbg : Bool) (hs : List Hasher) : Op π → Prop
  | .create _ calls => ∀ x ∈ calls, x.InRange a
  | .clone i => i < hs.length
  | .update i _ => i < hs.length
  | .updateMany jobs => (∀ j ∈ jobs, j.1 < hs.length) ∧ (jobs.map Prod.fst).Nodup
  | .write i _ => i < hs.length
  | .flush i => i < hs.length
  | .setLastNode i _ => i < hs.length
  | .finalize i => i < hs.length
  | .count i => i < hs.length ∧
      (dbg = true → ∀ h ∈ hs[i]?, ¬ CountUnderflow a (bb a) h.config.key h.msg)

/-- The hashers after a history. -/
def history {π : Type} (a : Alg) (hs : List Hasher) (ops : List (Op π)) : List Hasher := ops.foldl (Op.next a) hs

/-- What the client is told in the course of a history. -/
def answers {π : Type} (a : Alg) : List Hasher → List (Op π) → List Obs
  | _, [] => []
  | hs, op :: ops => op.answer a hs :: answers a (op.next a hs) ops

/-- Every operation of the history may be performed when its turn comes. -/
def ValidHistory {π : Type} (a : Alg) (dbg : Bool) : List Hasher → List (Op π) → Prop
  | _, [] => True
  | hs, op :: ops => op.Valid a dbg hs ∧ ValidHistory a dbg (op.next a hs) ops

instance {π : Type} (a : Alg) (dbg : Bool) (hs : List Hasher) (op : Op π) : Decidable (op.Valid a dbg hs) := by
  cases op <;> unfold Op.Valid <;> infer_instance

instance decValidHistory {π : Type} (a : Alg) (dbg : Bool) :
    (hs : List Hasher) → (ops : List (Op π)) → Decidable (ValidHistory a dbg hs ops)
  | _, [] => isTrue trivial
  | hs, op :: ops => @instDecidableAnd _ _ _ (decValidHistory a dbg (op.next a hs) ops)

/-- What Rust's type system guarantees of an operation when there are `n` states: it refers to states that exist, and a batch
borrows no state twice. -/
def Op.WellTyped {π : Type} (n : Nat) : Op π → Prop
  | .create _ _ => True
  | .clone i => i < n
  | .update i _ => i < n
  | .updateMany jobs => (∀ j ∈ jobs, j.1 < n) ∧ (jobs.map Prod.fst).Nodup
  | .write i _ => i < n
  | .flush i => i < n
  | .setLastNode i _ => i < n
  | .finalize i => i < n
  | .count i => i < n

/-- Every operation of the history is well-typed when its turn comes. -/
def WellTypedHistory {π : Type} (a : Alg) : List Hasher → List (Op π) → Prop
  | _, [] => True
  | hs, op :: ops => op.WellTyped hs.length ∧ WellTypedHistory a (op.next a hs) ops

instance {π : Type} (n : Nat) (op : Op π) : Decidable (op.WellTyped n) := by
  cases op <;> unfold Op.WellTyped <;> infer_instance

instance decWellTypedHistory {π : Type} (a : Alg) :
    (hs : List Hasher) → (ops : List (Op π)) → Decidable (WellTypedHistory a hs ops)
  | _, [] => isTrue trivial
  | hs, op :: ops => @instDecidableAnd _ _ _ (decWellTypedHistory a (op.next a hs) ops)

/-- The documented panics: a builder argument out of range, and with overflow checks a `count` that underflows. -/
def Op.MayPanic {π : Type} (a : Alg) (dbg : Bool) (hs : List Hasher) : Op π → Prop
  | .create _ calls => ∃ x ∈ calls, ¬ x.InRange a
  | .count i => dbg = true ∧ ∃ h, hs[i]? = some h ∧ CountUnderflow a (bb a) h.config.key h.msg
  | _ => False

/-! ## Histories of operations on a population of tree hashers -/

/-- What a tree hasher is to its client. -/
structure PHasher where
  config : PConfig
  msg : List Byte

/-- An operation. -/
inductive POp (π : Type) where
  | create (plat : π) (calls : List PSetter)
  | clone (i : Nat)
  | update (i : Nat) (x : List Byte)
  | write (i : Nat) (x : List Byte)
  | flush (i : Nat)
  | finalize (i : Nat)
  | count (i : Nat)

/-- Feed bytes to a tree hasher. -/
def PHasher.feed (x : List Byte) (h : PHasher) : PHasher := { h with msg := h.msg ++ x }

/-- The same operation, asked of other platforms. -/
def POp.onPlatforms {π ρ : Type} (f : π → ρ) : POp π → POp ρ
  | .create plat calls => .create (f plat) calls
  | .clone i => .clone i
  | .update i x => .update i x
  | .write i x => .write i x
  | .flush i => .flush i
  | .finalize i => .finalize i
  | .count i => .count i

/-- Operations that only observe. -/
def POp.isQuery {π : Type} : POp π → Bool
  | .finalize _ => true
  | .count _ => true
  | _ => false

/-- Operations that are meant to change state `i`. -/
def POp.targets {π : Type} (i : Nat) : POp π → Bool
  | .update j _ => j == i
  | .write j _ => j == i
  | _ => false

/-- The tree hashers after an operation. -/
def POp.next {π : Type} (a : Alg) (hs : List PHasher) : POp π → List PHasher
  | .create _ calls => hs ++ [{ config := pconfigOf a calls, msg := [] }]
  | .clone i => hs ++ hs[i]?.toList
  | .update i x => hs.modify i (PHasher.feed x)
  | .write i x => hs.modify i (PHasher.feed x)
  | .flush _ => hs
  | .finalize _ => hs
  | .count _ => hs

/-- What the client is told. -/
def POp.answer {π : Type} (a : Alg) (hs : List PHasher) : POp π → Obs
  | .finalize i => match hs[i]? with
    | some h => .digest (hashP a h.config.hashLength h.config.key h.msg)
    | none => .done
  | .count i => match hs[i]? with
    | some h => .count (h.msg.length % 2 ^ (2 * a.w))
    | none => .done
  | .write _ x => .written x.length
  | _ => .done

/-- When an operation may be performed; `dbg` as in `Op.Valid`. -/
def POp.Valid {π : Type} (a : Alg) (dbg : Bool) (hs : List PHasher) : POp π → Prop
  | .create _ calls => ∀ x ∈ calls, x.InRange a
  | .clone i => i < hs.length
  | .update i _ => i < hs.length
  | .write i _ => i < hs.length
  | .flush i => i < hs.length
  | .finalize i => i < hs.length
  | .count i => i < hs.length ∧
      (dbg = true → ∀ h ∈ hs[i]?, ¬ CountUnderflow a (degree a * bb a) h.config.key h.msg)

/-- The tree hashers after a history. -/
def phistory {π : Type} (a : Alg) (hs : List PHasher) (ops : List (POp π)) : List PHasher := ops.foldl (POp.next a) hs

/-- What the client is told in the course of a history. -/
def panswers {π : Type} (a : Alg) : List PHasher → List (POp π) → List Obs
  | _, [] => []
  | hs, op :: ops => op.answer a hs :: panswers a (op.next a hs) ops

/-- Every operation of the history may be performed when its turn comes. -/
def ValidPHistory {π : Type} (a : Alg) (dbg : Bool) : List PHasher → List (POp π) → Prop
  | _, [] => True
  | hs, op :: ops => op.Valid a dbg hs ∧ ValidPHistory a dbg (op.next a hs) ops

instance {π : Type} (a : Alg) (dbg : Bool) (hs : List PHasher) (op : POp π) : Decidable (op.Valid a dbg hs) := by
  cases op <;> unfold POp.Valid <;> infer_instance

instance decValidPHistory {π : Type} (a : Alg) (dbg : Bool) :
    (hs : List PHasher) → (ops : List (POp π)) → Decidable (ValidPHistory a dbg hs ops)
  | _, [] => isTrue trivial
  | hs, op :: ops => @instDecidableAnd _ _ _ (decValidPHistory a dbg (op.next a hs) ops)

/-- What Rust's type system guarantees of an operation when there are `n` states. -/
def POp.WellTyped {π : Type} (n : Nat) : POp π → Prop
  | .create _ _ => True
  | .clone i => i < n
  | .update i _ => i < n
  | .write i _ => i < n
  | .flush i => i < n
  | .finalize i => i < n
  | .count i => i < n

/-- Every operation of the history is well-typed when its turn comes. -/
def WellTypedPHistory {π : Type} (a : Alg) : List PHasher → List (POp π) → Prop
  | _, [] => True
  | hs, op :: ops => op.WellTyped hs.length ∧ WellTypedPHistory a (op.next a hs) ops

instance {π : Type} (n : Nat) (op : POp π) : Decidable (op.WellTyped n) := by
  cases op <;> unfold POp.WellTyped <;> infer_instance

instance decWellTypedPHistory {π : Type} (a : Alg) :
    (hs : List PHasher) → (ops : List (POp π)) → Decidable (WellTypedPHistory a hs ops)
  | _, [] => isTrue trivial
  | hs, op :: ops => @instDecidableAnd _ _ _ (decWellTypedPHistory a (op.next a hs) ops)

/-- The documented panics. -/
def POp.MayPanic {π : Type} (a : Alg) (dbg : Bool) (hs : List PHasher) : POp π → Prop
  | .create _ calls => ∃ x ∈ calls, ¬ x.InRange a
  | .count i => dbg = true ∧ ∃ h, hs[i]? = some h ∧ CountUnderflow a (degree a * bb a) h.config.key h.msg
  | _ => False

end Blake2.Spec
