/-!
Vocabulary shared by the specification and the model: the two algorithms, bytes, words and
little-endian conversion.
-/
namespace Blake2

/-- Which algorithm / crate: `b` is BLAKE2b (`blake2b_simd`), `s` is BLAKE2s (`blake2s_simd`). -/
inductive Alg where
  | b
  | s
deriving DecidableEq, Repr

/-- A byte (`u8`). -/
abbrev Byte := BitVec 8

/-- Bits in a word. RFC 7693 section 2.1: 64 for BLAKE2b, 32 for BLAKE2s.
Model: `type Word = u64` (blake2b/src/lib.rs 64), `type Word = u32` (blake2s/src/lib.rs 63). -/
@[reducible] def Alg.w : Alg → Nat
  | .b => 64
  | .s => 32

/-- Bytes in a word, `size_of::<Word>()`. -/
@[reducible] def Alg.wb : Alg → Nat
  | .b => 8
  | .s => 4

/-- A BLAKE2 word. -/
abbrev Word (a : Alg) := BitVec a.w

/-- The number a byte string denotes in little-endian order. -/
def leNat : List Byte → Nat
  | [] => 0
  | x :: xs => x.toNat + 256 * leNat xs

/-- The `n` low-order bytes of `x` in little-endian order. -/
def leBytes : Nat → Nat → List Byte
  | 0, _ => []
  | n + 1, x => BitVec.ofNat 8 x :: leBytes n (x / 256)

end Blake2
