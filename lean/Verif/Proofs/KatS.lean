import Verif.Model.KatData
import Verif.Proofs.KatEval
/-!
# The vectors of blake2s, evaluated
-/
namespace Blake2.Kat
open Spec

theorem s0_eq : s0 = fastOuts (.serial .s) 0 0 32 := by kernel_rfl

theorem s32_eq : s32 = fastOuts (.serial .s) 0 32 32 := by kernel_rfl

theorem s64_eq : s64 = fastOuts (.serial .s) 0 64 32 := by kernel_rfl

theorem s96_eq : s96 = fastOuts (.serial .s) 0 96 32 := by kernel_rfl

theorem s128_eq : s128 = fastOuts (.serial .s) 0 128 32 := by kernel_rfl

theorem s160_eq : s160 = fastOuts (.serial .s) 0 160 32 := by kernel_rfl

theorem s192_eq : s192 = fastOuts (.serial .s) 0 192 32 := by kernel_rfl

theorem s224_eq : s224 = fastOuts (.serial .s) 0 224 32 := by kernel_rfl

theorem s_eq : s = fastOuts (.serial .s) 0 0 256 := by
  unfold s
  rw [s0_eq, s32_eq, s64_eq, s96_eq, s128_eq, s160_eq, s192_eq, s224_eq]
  exact fastOuts_eight _ _

theorem sKeyed0_eq : sKeyed0 = fastOuts (.serial .s) 32 0 32 := by kernel_rfl

theorem sKeyed32_eq : sKeyed32 = fastOuts (.serial .s) 32 32 32 := by kernel_rfl

theorem sKeyed64_eq : sKeyed64 = fastOuts (.serial .s) 32 64 32 := by kernel_rfl

theorem sKeyed96_eq : sKeyed96 = fastOuts (.serial .s) 32 96 32 := by kernel_rfl

theorem sKeyed128_eq : sKeyed128 = fastOuts (.serial .s) 32 128 32 := by kernel_rfl

theorem sKeyed160_eq : sKeyed160 = fastOuts (.serial .s) 32 160 32 := by kernel_rfl

theorem sKeyed192_eq : sKeyed192 = fastOuts (.serial .s) 32 192 32 := by kernel_rfl

theorem sKeyed224_eq : sKeyed224 = fastOuts (.serial .s) 32 224 32 := by kernel_rfl

theorem sKeyed_eq : sKeyed = fastOuts (.serial .s) 32 0 256 := by
  unfold sKeyed
  rw [sKeyed0_eq, sKeyed32_eq, sKeyed64_eq, sKeyed96_eq, sKeyed128_eq, sKeyed160_eq, sKeyed192_eq, sKeyed224_eq]
  exact fastOuts_eight _ _

end Blake2.Kat
