import Verif.Spec
/-!
# Vocabulary for the structural security properties

The calls of the compression function that a hash consists of, and what a collision between two calls is. Written from
RFC 7693; nothing in this file refers to the model.
-/
namespace Blake2.Spec

/-- One call of the compression function: the chaining value it starts from and the frame it is given. -/
abbrev Call (a : Alg) := Vector (Word a) 8 × Frame

/-- The output of a call, as bytes. -/
def Call.output {a : Alg} (x : Call a) : List Byte := wordsToBytes a (x.2.step a x.1)

/-- The successive calls for a list of frames, each starting from the output of the one before it. -/
def callsFrom (a : Alg) (h : Vector (Word a) 8) : List Frame → List (Call a)
  | [] => []
  | fr :: frs => (h, fr) :: callsFrom a (fr.step a h) frs

/-- The calls made to hash `msg` with parameters `c`. -/
def nodeCalls (a : Alg) (c : Config) (msg : List Byte) : List (Call a) :=
  callsFrom a (initH a c) (frames a (keyedData a c.key msg) c.lastNode)

/-- The calls made by leaf `i` of BLAKE2bp / BLAKE2sp. -/
def leafCalls (a : Alg) (hashLength : Nat) (key msg : List Byte) (i : Nat) : List (Call a) :=
  nodeCalls a (leafConfig a hashLength key i) (leafMsg a msg i)

/-- The calls made by the root, which hashes the outputs of the leaves. -/
def rootCalls (a : Alg) (hashLength : Nat) (key msg : List Byte) : List (Call a) :=
  callsFrom a (initH a (rootConfig a hashLength key))
    (frames a ((List.range (degree a)).flatMap fun i => hashFull a (leafConfig a hashLength key i) (leafMsg a msg i)) true)

/-- Two calls collide: they are given different things and their outputs agree — completely, or, if both are final calls, in
the `n` bytes of which the digest consists. -/
def Collide {a : Alg} (n : Nat) (x y : Call a) : Prop :=
  x ≠ y ∧ (x.output = y.output ∨ (x.2.final = true ∧ y.2.final = true ∧ x.output.take n = y.output.take n))

instance {a : Alg} (n : Nat) (x y : Call a) : Decidable (Collide n x y) := by unfold Collide; infer_instance

/-- Parameters with salt and personalization zero padded: what is left of them in the parameter block. -/
def Config.padded (a : Alg) (c : Config) : Config :=
  { c with salt := pad (saltBytes a) c.salt, personal := pad (saltBytes a) c.personal }

end Blake2.Spec
