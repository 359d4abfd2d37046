import Verif.XofSpec
/-!
# What a test vector says

A file of test vectors names a hash function, an input, a key and the expected output, all in text. Nothing here refers to the model.
-/
namespace Blake2.Spec

/-- The hash functions the vectors are about. -/
inductive Suite where
  | serial (a : Alg)
  | tree (a : Alg)
  | xof (a : Alg)

/-- Their names in the file. -/
def Suite.name : Suite → String
  | .serial .b => "blake2b"
  | .serial .s => "blake2s"
  | .tree .b => "blake2bp"
  | .tree .s => "blake2sp"
  | .xof .b => "blake2xb"
  | .xof .s => "blake2xs"

/-- BLAKE2b or BLAKE2s. -/
def Suite.alg : Suite → Alg
  | .serial a => a
  | .tree a => a
  | .xof a => a

/-- One vector. -/
structure TestCase where
  hash : String
  input : List Char
  key : List Char
  out : List Char

/-- The output of the function, at its full length; for BLAKE2X at the length wanted, if it has one that long. -/
def Suite.output (length : Nat) (key input : List Byte) : Suite → Option (List Byte)
  | .serial a => some (hash a { Config.default a with key := key } input)
  | .tree a => some (hashP a (maxOut a) key input)
  | .xof a => if length < xofRange a then some (Spec.xof a key input length) else none

/-- A vector is right if its input and key are hexadecimal text, the key is not too long, and the expected output is the output in
lowercase hexadecimal. -/
def TestCase.Right (s : Suite) (c : TestCase) : Prop :=
  ∃ key input out, unhex c.key = some key ∧ unhex c.input = some input ∧ key.length ≤ maxOut s.alg ∧
    s.output (c.out.length / 2) key input = some out ∧ c.out = hexOf out

end Blake2.Spec
