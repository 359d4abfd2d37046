import Verif.ApiSpec
/-!
# What may be revealed

Two clients' programs that an observer of branches and addresses should not be able to tell apart: they make the same calls in the
same order, with byte strings of the same lengths, on the same platforms. Nothing here refers to the model.
-/
namespace Blake2.Spec

/-- Two builder calls that differ only in what should stay hidden: the contents of keys, salts and personalizations, and the values
of the tree parameters. The lengths of byte strings, the output length and the last-node flag are public; so is whether a call is
within its documented range (outside, it panics). -/
def Setter.Indist (a : Alg) : Setter → Setter → Prop
  | .hashLength n, .hashLength m => n = m
  | .key x, .key y => x.length = y.length
  | .salt x, .salt y => x.length = y.length
  | .personal x, .personal y => x.length = y.length
  | .fanout _, .fanout _ => True
  | .maxDepth _, .maxDepth _ => True
  | .maxLeafLength _, .maxLeafLength _ => True
  | .nodeOffset n, .nodeOffset m => (Setter.nodeOffset n).InRange a ↔ (Setter.nodeOffset m).InRange a
  | .nodeDepth _, .nodeDepth _ => True
  | .innerHashLength n, .innerHashLength m => (Setter.innerHashLength n).InRange a ↔ (Setter.innerHashLength m).InRange a
  | .lastNode b, .lastNode b' => b = b'
  | _, _ => False

/-- Pairwise indistinguishable builder calls. -/
def IndistCalls (a : Alg) : List Setter → List Setter → Prop
  | [], [] => True
  | c :: cs, d :: ds => c.Indist a d ∧ IndistCalls a cs ds
  | _, _ => False

/-- Two operations that differ only in the contents of byte strings and in the tree parameters. -/
def Op.Indist {π : Type} (a : Alg) : Op π → Op π → Prop
  | .create plat calls, .create plat' calls' => plat = plat' ∧ IndistCalls a calls calls'
  | .clone i, .clone j => i = j
  | .update i x, .update j y => i = j ∧ x.length = y.length
  | .updateMany js, .updateMany js' => js.map (fun j => (j.1, j.2.length)) = js'.map (fun j => (j.1, j.2.length))
  | .write i x, .write j y => i = j ∧ x.length = y.length
  | .flush i, .flush j => i = j
  | .setLastNode i b, .setLastNode j b' => i = j ∧ b = b'
  | .finalize i, .finalize j => i = j
  | .count i, .count j => i = j
  | _, _ => False

/-- Two histories of pairwise indistinguishable operations. -/
def IndistHistory {π : Type} (a : Alg) : List (Op π) → List (Op π) → Prop
  | [], [] => True
  | op :: ops, op' :: ops' => op.Indist a op' ∧ IndistHistory a ops ops'
  | _, _ => False

/-- Two builder calls of the tree variants that differ only in the contents of the key. -/
def PSetter.Indist : PSetter → PSetter → Prop
  | .hashLength n, .hashLength m => n = m
  | .key x, .key y => x.length = y.length
  | _, _ => False

/-- Pairwise indistinguishable builder calls of the tree variants. -/
def IndistPCalls : List PSetter → List PSetter → Prop
  | [], [] => True
  | c :: cs, d :: ds => c.Indist d ∧ IndistPCalls cs ds
  | _, _ => False

/-- Two operations on tree hashers that differ only in the contents of byte strings. -/
def POp.Indist {π : Type} : POp π → POp π → Prop
  | .create plat calls, .create plat' calls' => plat = plat' ∧ IndistPCalls calls calls'
  | .clone i, .clone j => i = j
  | .update i x, .update j y => i = j ∧ x.length = y.length
  | .write i x, .write j y => i = j ∧ x.length = y.length
  | .flush i, .flush j => i = j
  | .finalize i, .finalize j => i = j
  | .count i, .count j => i = j
  | _, _ => False

/-- Two histories of pairwise indistinguishable operations on tree hashers. -/
def IndistPHistory {π : Type} : List (POp π) → List (POp π) → Prop
  | [], [] => True
  | op :: ops, op' :: ops' => op.Indist op' ∧ IndistPHistory ops ops'
  | _, _ => False

end Blake2.Spec
