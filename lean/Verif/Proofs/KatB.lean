import Verif.Model.KatData
import Verif.Proofs.KatEval
/-!
# The vectors of blake2b, evaluated
-/
namespace Blake2.Kat
open Spec

theorem b0_eq : b0 = fastOuts (.serial .b) 0 0 32 := by kernel_rfl

theorem b32_eq : b32 = fastOuts (.serial .b) 0 32 32 := by kernel_rfl

theorem b64_eq : b64 = fastOuts (.serial .b) 0 64 32 := by kernel_rfl

theorem b96_eq : b96 = fastOuts (.serial .b) 0 96 32 := by kernel_rfl

theorem b128_eq : b128 = fastOuts (.serial .b) 0 128 32 := by kernel_rfl

theorem b160_eq : b160 = fastOuts (.serial .b) 0 160 32 := by kernel_rfl

theorem b192_eq : b192 = fastOuts (.serial .b) 0 192 32 := by kernel_rfl

theorem b224_eq : b224 = fastOuts (.serial .b) 0 224 32 := by kernel_rfl

theorem b_eq : b = fastOuts (.serial .b) 0 0 256 := by
  unfold b
  rw [b0_eq, b32_eq, b64_eq, b96_eq, b128_eq, b160_eq, b192_eq, b224_eq]
  exact fastOuts_eight _ _

theorem bKeyed0_eq : bKeyed0 = fastOuts (.serial .b) 64 0 32 := by kernel_rfl

theorem bKeyed32_eq : bKeyed32 = fastOuts (.serial .b) 64 32 32 := by kernel_rfl

theorem bKeyed64_eq : bKeyed64 = fastOuts (.serial .b) 64 64 32 := by kernel_rfl

theorem bKeyed96_eq : bKeyed96 = fastOuts (.serial .b) 64 96 32 := by kernel_rfl

theorem bKeyed128_eq : bKeyed128 = fastOuts (.serial .b) 64 128 32 := by kernel_rfl

theorem bKeyed160_eq : bKeyed160 = fastOuts (.serial .b) 64 160 32 := by kernel_rfl

theorem bKeyed192_eq : bKeyed192 = fastOuts (.serial .b) 64 192 32 := by kernel_rfl

theorem bKeyed224_eq : bKeyed224 = fastOuts (.serial .b) 64 224 32 := by kernel_rfl

theorem bKeyed_eq : bKeyed = fastOuts (.serial .b) 64 0 256 := by
  unfold bKeyed
  rw [bKeyed0_eq, bKeyed32_eq, bKeyed64_eq, bKeyed96_eq, bKeyed128_eq, bKeyed160_eq, bKeyed192_eq, bKeyed224_eq]
  exact fastOuts_eight _ _

end Blake2.Kat
