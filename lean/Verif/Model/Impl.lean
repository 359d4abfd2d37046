import Verif.Model.BAvx2
import Verif.Model.BSse41
import Verif.Model.SSse41
import Verif.Model.SAvx2
/-!
# Model of the dispatch in `guts.rs` (`impl Implementation`)
-/
namespace Blake2

/-- `Implementation::compress1_loop`. blake2b/src/guts.rs 96-116, blake2s/src/guts.rs 96-114. -/
def compress1 : (a : Alg) → Platform → List Byte → Vector (Word a) 8 → Count a → (lastNode finalize : Bool) → Stride →
    Res (Vector (Word a) 8)
  | .b, .AVX2 => BAvx2.compress1Loop
  | .b, _ => Portable.compress1Loop .b
  | .s, .AVX2 => SSse41.compress1Loop
  | .s, .SSE41 => SSse41.compress1Loop
  | .s, .Portable => Portable.compress1Loop .s

/-- Width of the wider N-way loop: `compress4_loop` (BLAKE2b), `compress8_loop` (BLAKE2s). many.rs 150-160. -/
def hiDegree : Alg → Nat
  | .b => 4
  | .s => 8

/-- Width of the narrower N-way loop: `compress2_loop` (BLAKE2b), `compress4_loop` (BLAKE2s). many.rs 163-173. -/
def loDegree : Alg → Nat
  | .b => 2
  | .s => 4

/-- The wider N-way loop: `Implementation::compress4_loop`, blake2b/src/guts.rs 129-134;
`Implementation::compress8_loop`, blake2s/src/guts.rs 127-132. -/
def compressHi : (a : Alg) → Platform → Vector (Job a) (hiDegree a) → (finalize : Bool) → Stride →
    Res (Vector (Job a) (hiDegree a))
  | .b, .AVX2 => BAvx2.compress4Loop
  | .s, .AVX2 => SAvx2.compress8Loop
  | _, _ => fun _ _ _ => .error .panic -- "unsupported"

/-- The narrower N-way loop: `Implementation::compress2_loop`, blake2b/src/guts.rs 119-126;
`Implementation::compress4_loop`, blake2s/src/guts.rs 117-124. -/
def compressLo : (a : Alg) → Platform → Vector (Job a) (loDegree a) → (finalize : Bool) → Stride →
    Res (Vector (Job a) (loDegree a))
  | .b, .AVX2 => BSse41.compress2Loop
  | .b, .SSE41 => BSse41.compress2Loop
  | .s, .AVX2 => SSse41.compress4Loop
  | .s, .SSE41 => SSse41.compress4Loop
  | _, .Portable => fun _ _ _ => .error .panic -- "unsupported"

end Blake2
