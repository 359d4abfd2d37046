import Verif.Model.Api
/-!
# Model of BLAKE2X written with the sequential API

The test vectors of BLAKE2Xb and BLAKE2Xs are checked with an implementation of BLAKE2X that is a client of `Params`:
tests/vector_tests.rs 153-276.
-/
namespace Blake2
variable {a : Alg}

/-- `variant_hash_length`, and the literals 64 and 32 in the two hashers. tests/vector_tests.rs 219, 231, 232, 242, 252, 264, 265,
275. -/
def xofHashLength : Alg → Nat
  | .b => 64
  | .s => 32

/-- `blake2xb_h0_hasher`, `blake2xs_h0_hasher`. tests/vector_tests.rs 247-258, 214-225. -/
def xofH0 (a : Alg) (plat : Platform) (input key : List Byte) (combined : BitVec 64) : Res (List Byte) := do
  let p ← (Params.new a plat).build [.key key, .hashLength (xofHashLength a), .nodeOffset combined]
  let h ← p.hash input
  h.asBytes

/-- `blake2xb_b2_hasher`, `blake2xs_b2_hasher`. tests/vector_tests.rs 259-273, 226-240. -/
def xofB2 (a : Alg) (plat : Platform) (input : List Byte) (combined : BitVec 64) (hashLength : Nat) : Res (List Byte) := do
  let p ← (Params.new a plat).build [.hashLength hashLength, .maxLeafLength (BitVec.ofNat 32 (xofHashLength a)),
    .innerHashLength (xofHashLength a), .fanout 0, .maxDepth 0, .nodeOffset combined]
  let h ← p.hash input
  h.asBytes

/-- The `while` loop. `b2_hash_index` is an `i32`; its increment is checked, as in a debug build. tests/vector_tests.rs 179-201. -/
def xofLoop (a : Alg) (plat : Platform) (h0 : List Byte) (combined : BitVec 64) (outputLength : Nat) :
    (fuel index : Nat) → (buf : List Byte) → Res (List Byte)
  | 0, _, _ => .error .diverge
  | fuel + 1, index, buf =>
    if buf.length < outputLength then do
      let hashLength :=
        if outputLength - buf.length < xofHashLength a ∧ outputLength % xofHashLength a ≠ 0 then outputLength % xofHashLength a
        else xofHashLength a
      let out ← xofB2 a plat h0 (BitVec.ofNat 64 index ||| combined) hashLength
      if index + 1 < 2 ^ 31 then xofLoop a plat h0 combined outputLength fuel (index + 1) (buf ++ out)
      else .error .panic
    else .ok buf

/-- The body of `blake2x_test`, from the input, the key and the output length to the bytes compared with the test vector.
tests/vector_tests.rs 170-202. -/
def blake2x (a : Alg) (plat : Platform) (input key : List Byte) (outputLength : Nat) : Res (List Byte) := do
  let combined : BitVec 64 := BitVec.ofNat 64 outputLength <<< 32
  let h0 ← xofH0 a plat input key combined
  let buf ← xofLoop a plat h0 combined outputLength (outputLength + 1) 0 []
  sliceTo buf outputLength

end Blake2
