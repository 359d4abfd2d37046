import Verif.Basic
/-!
# Model: faults, slices, constants

Rust values are modelled as follows.
* `u8`, `u32`, `u64`, `Word`: `BitVec`; wrapping operations are `BitVec` operations.
* `usize`: `Nat`. Every addition of `usize` values in the modelled code is bounded by slice lengths.
* `&[u8]` and `[u8; N]`: `List Byte`. A slice operation that would panic returns `Fault.panic`; a raw pointer read
  outside the slice returns `Fault.ub`.
* A `loop` that is not syntactically bounded carries fuel and returns `Fault.diverge` when it runs out.
-/
namespace Blake2

/-- How a Rust computation can fail to return.
Sources of panics: blake2b/src/lib.rs 239, 252, 263, 273, 321, blake2b/src/guts.rs 124, 132, 256, and every slice index; of undefined
behaviour: the raw pointers of blake2b/src/sse41.rs 20, 425-428, blake2b/src/avx2.rs 20, 31, 460, 891-896; of divergence: the `loop`s and
`while`s of blake2b/src/many.rs 104-169, blake2b/src/portable.rs 139-165, blake2b/src/avx2.rs 447-475. -/
inductive Fault where
  /-- a Rust panic: failed assertion, slice index out of range, checked arithmetic overflow, `unwrap` on `None` -/
  | panic
  /-- undefined behaviour: an out-of-bounds read through a raw pointer -/
  | ub
  /-- a loop that does not terminate -/
  | diverge
deriving DecidableEq, Repr

/-- Result of a Rust computation. Not in /repo: Rust's own notion of evaluation. -/
abbrev Res (α : Type) := Except Fault α

/-- `BLOCKBYTES` = `16 * size_of::<Word>()`. blake2b/src/lib.rs 77, blake2s/src/lib.rs 76. -/
def Alg.bb (a : Alg) : Nat := 16 * a.wb
/-- `OUTBYTES` = `8 * size_of::<Word>()`. blake2b/src/lib.rs 68, blake2s/src/lib.rs 67. -/
def Alg.outbytes (a : Alg) : Nat := 8 * a.wb
/-- `KEYBYTES`. blake2b/src/lib.rs 70, blake2s/src/lib.rs 69. -/
def Alg.keybytes (a : Alg) : Nat := 8 * a.wb
/-- `SALTBYTES`. blake2b/src/lib.rs 72, blake2s/src/lib.rs 71. -/
def Alg.saltbytes (a : Alg) : Nat := 2 * a.wb
/-- `PERSONALBYTES`. blake2b/src/lib.rs 74, blake2s/src/lib.rs 73. -/
def Alg.personalbytes (a : Alg) : Nat := 2 * a.wb

/-- `type Count`: `u128` (blake2b/src/lib.rs 65) or `u64` (blake2s/src/lib.rs 64). -/
abbrev Count (a : Alg) := BitVec (2 * a.w)

/-- Number of rows of the `SIGMA` table, which is also the number of rounds: blake2b/src/lib.rs 90, blake2s/src/lib.rs 82. -/
@[reducible] def Alg.rows : Alg → Nat
  | .b => 12
  | .s => 10

/-- `const IV`. blake2b/src/lib.rs 79-88, blake2s/src/lib.rs 78-80. -/
def IV : (a : Alg) → Vector (Word a) 8
  | .b => #v[0x6A09E667F3BCC908#64, 0xBB67AE8584CAA73B#64, 0x3C6EF372FE94F82B#64, 0xA54FF53A5F1D36F1#64,
             0x510E527FADE682D1#64, 0x9B05688C2B3E6C1F#64, 0x1F83D9ABFB41BD6B#64, 0x5BE0CD19137E2179#64]
  | .s => #v[0x6A09E667#32, 0xBB67AE85#32, 0x3C6EF372#32, 0xA54FF53A#32,
             0x510E527F#32, 0x9B05688C#32, 0x1F83D9AB#32, 0x5BE0CD19#32]

/-- `const SIGMA`. blake2b/src/lib.rs 90-103 (12 rows), blake2s/src/lib.rs 82-93 (10 rows). -/
def SIGMA : (a : Alg) → Vector (Vector (Fin 16) 16) a.rows
  | .b => #v[
    #v[0, 1, 2, 3, 4, 5, 6, 7, 8, 9, 10, 11, 12, 13, 14, 15],
    #v[14, 10, 4, 8, 9, 15, 13, 6, 1, 12, 0, 2, 11, 7, 5, 3],
    #v[11, 8, 12, 0, 5, 2, 15, 13, 10, 14, 3, 6, 7, 1, 9, 4],
    #v[7, 9, 3, 1, 13, 12, 11, 14, 2, 6, 5, 10, 4, 0, 15, 8],
    #v[9, 0, 5, 7, 2, 4, 10, 15, 14, 1, 11, 12, 6, 8, 3, 13],
    #v[2, 12, 6, 10, 0, 11, 8, 3, 4, 13, 7, 5, 15, 14, 1, 9],
    #v[12, 5, 1, 15, 14, 13, 4, 10, 0, 7, 6, 3, 9, 2, 8, 11],
    #v[13, 11, 7, 14, 12, 1, 3, 9, 5, 0, 15, 4, 8, 6, 2, 10],
    #v[6, 15, 14, 9, 11, 3, 0, 8, 12, 2, 13, 7, 1, 4, 10, 5],
    #v[10, 2, 8, 4, 7, 6, 1, 5, 15, 11, 9, 14, 3, 12, 13, 0],
    #v[0, 1, 2, 3, 4, 5, 6, 7, 8, 9, 10, 11, 12, 13, 14, 15],
    #v[14, 10, 4, 8, 9, 15, 13, 6, 1, 12, 0, 2, 11, 7, 5, 3]]
  | .s => #v[
    #v[0, 1, 2, 3, 4, 5, 6, 7, 8, 9, 10, 11, 12, 13, 14, 15],
    #v[14, 10, 4, 8, 9, 15, 13, 6, 1, 12, 0, 2, 11, 7, 5, 3],
    #v[11, 8, 12, 0, 5, 2, 15, 13, 10, 14, 3, 6, 7, 1, 9, 4],
    #v[7, 9, 3, 1, 13, 12, 11, 14, 2, 6, 5, 10, 4, 0, 15, 8],
    #v[9, 0, 5, 7, 2, 4, 10, 15, 14, 1, 11, 12, 6, 8, 3, 13],
    #v[2, 12, 6, 10, 0, 11, 8, 3, 4, 13, 7, 5, 15, 14, 1, 9],
    #v[12, 5, 1, 15, 14, 13, 4, 10, 0, 7, 6, 3, 9, 2, 8, 11],
    #v[13, 11, 7, 14, 12, 1, 3, 9, 5, 0, 15, 4, 8, 6, 2, 10],
    #v[6, 15, 14, 9, 11, 3, 0, 8, 12, 2, 13, 7, 1, 4, 10, 5],
    #v[10, 2, 8, 4, 7, 6, 1, 5, 15, 11, 9, 14, 3, 12, 13, 0]]

/-! ## Slices (semantics of `core` slice indexing) -/

/-- `&l[i..]`: panics if `i > l.len()`. Used at blake2b/src/lib.rs 428, 470, blake2b/src/guts.rs 239. -/
def sliceFrom (l : List Byte) (i : Nat) : Res (List Byte) :=
  if i ≤ l.length then .ok (l.drop i) else .error .panic

/-- `&l[..j]`: panics if `j > l.len()`. Used at blake2b/src/lib.rs 426, 462, blake2b/src/blake2bp.rs 92, 254, 349. -/
def sliceTo (l : List Byte) (j : Nat) : Res (List Byte) :=
  if j ≤ l.length then .ok (l.take j) else .error .panic

/-- `l[lo..hi].copy_from_slice(src)`: panics if `lo > hi`, `hi > l.len()` or `hi - lo ≠ src.len()`.
Used at blake2b/src/lib.rs 255, 265, 279, 426. -/
def copyRange (l : List Byte) (lo hi : Nat) (src : List Byte) : Res (List Byte) :=
  if lo ≤ hi ∧ hi ≤ l.length ∧ hi - lo = src.length then .ok (l.take lo ++ src ++ l.drop hi) else .error .panic

/-- `array_ref!(l, off, n)`: a bounds-checked `&[u8; n]` (crate `arrayref`: it indexes `l[off..off + n]` first). -/
def arrayRef (l : List Byte) (off n : Nat) : Res (List Byte) :=
  if off + n ≤ l.length then .ok ((l.drop off).take n) else .error .panic

/-- `&*(l.as_ptr().add(off) as *const [u8; n])`: an unchecked read, undefined behaviour out of range. -/
def rawRef (l : List Byte) (off n : Nat) : Res (List Byte) :=
  if off + n ≤ l.length then .ok ((l.drop off).take n) else .error .ub

/-- `assert!` / `debug_assert!` (the model is of builds with debug assertions; `DESIGN.md` lists where it matters).
Used at blake2b/src/lib.rs 239, 252, 263, 273, 321, blake2b/src/guts.rs 256, blake2b/src/many.rs 123, 327. -/
def rassert (c : Bool) : Res Unit := if c then .ok () else .error .panic

/-- `usize::saturating_sub` is `Nat` subtraction; plain `a - b` on `usize` panics (debug) on underflow.
blake2b/src/lib.rs 425, 458, blake2b/src/avx2.rs 439, 849. -/
def checkedSub (x y : Nat) : Res Nat := if y ≤ x then .ok (x - y) else .error .panic

/-- Plain `a + b` on `usize`, which panics (debug) on overflow. `usize::MAX` is not a fixed number, so the sum is held to
`limit`, the length of some slice that is in memory (and so at most `isize::MAX`). This is stricter than the code: it
faults whenever the code does, and possibly earlier. blake2b/src/avx2.rs 474, 918, blake2b/src/portable.rs 164. -/
def addUsize (limit x y : Nat) : Res Nat := if x + y ≤ limit then .ok (x + y) else .error .panic

/-- `Word::from_le_bytes`. Used at blake2b/src/lib.rs 199-202, blake2b/src/portable.rs 78-93. -/
def fromLE (w : Nat) (bytes : List Byte) : BitVec w := BitVec.ofNat w (leNat bytes)

/-- `Word::to_le_bytes` for an `n`-byte word: byte `i` is bits `8i .. 8i+8`. -/
def toLE (n : Nat) {w : Nat} (x : BitVec w) : List Byte :=
  (List.range n).map fun i => x.extractLsb' (8 * i) 8

end Blake2
