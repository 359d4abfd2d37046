import Verif.Spec
/-!
# Specification of BLAKE2X

Written from the BLAKE2X document of the BLAKE2 authors (https://blake2.net/blake2x.pdf, section 2). Nothing here refers to the model.
-/
namespace Blake2.Spec

/-- Number of possible output lengths: BLAKE2Xb has a four-byte "XOF digest length" field in its parameter block, BLAKE2Xs a
two-byte one. -/
def xofRange : Alg → Nat
  | .b => 2 ^ 32
  | .s => 2 ^ 16

/-- BLAKE2X makes two fields of the node offset of BLAKE2: the node offset proper, in its first four bytes, and the XOF digest
length in the others. -/
def xofField (nodeOffset xofLength : Nat) : Nat := nodeOffset + 2 ^ 32 * xofLength

/-- BLAKE2X, section 2.1: the root hash `H0` is the hash of the input, with the sequential parameters and the XOF digest length. -/
def xofRoot (a : Alg) (key msg : List Byte) (length : Nat) : List Byte :=
  hash a { Config.default a with key := key, nodeOffset := xofField 0 length } msg

/-- BLAKE2X, section 2.2: the parameters of `B2(i, n, ·)`: digest length `n`, no key, fanout and depth zero, leaf length and inner
length the full digest length, node offset `i`, XOF digest length as in the root. -/
def xofConfig (a : Alg) (i n length : Nat) : Config :=
  { Config.default a with
    digestLength := n, fanout := 0, maxDepth := 0, leafLength := maxOut a, nodeOffset := xofField i length
    innerLength := maxOut a }

/-- BLAKE2X: the concatenation of `B2(0, 64, H0)`, `B2(1, 64, H0)`, … (32 instead of 64 for BLAKE2Xs), of which the last is only as
long as is needed. -/
def xof (a : Alg) (key msg : List Byte) (length : Nat) : List Byte :=
  (List.range ((length + maxOut a - 1) / maxOut a)).flatMap fun i =>
    hash a (xofConfig a i (min (maxOut a) (length - i * maxOut a)) length) (xofRoot a key msg length)

end Blake2.Spec
