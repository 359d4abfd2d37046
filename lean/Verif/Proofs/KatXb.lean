import Verif.Model.KatData
import Verif.Proofs.KatEval
/-!
# The vectors of blake2xb, evaluated
-/
namespace Blake2.Kat
open Spec

theorem xb0_eq : xb0 = fastOuts (.xof .b) 0 0 32 := by kernel_rfl

theorem xb32_eq : xb32 = fastOuts (.xof .b) 0 32 32 := by kernel_rfl

theorem xb64_eq : xb64 = fastOuts (.xof .b) 0 64 32 := by kernel_rfl

theorem xb96_eq : xb96 = fastOuts (.xof .b) 0 96 32 := by kernel_rfl

theorem xb128_eq : xb128 = fastOuts (.xof .b) 0 128 32 := by kernel_rfl

theorem xb160_eq : xb160 = fastOuts (.xof .b) 0 160 32 := by kernel_rfl

theorem xb192_eq : xb192 = fastOuts (.xof .b) 0 192 32 := by kernel_rfl

theorem xb224_eq : xb224 = fastOuts (.xof .b) 0 224 32 := by kernel_rfl

theorem xb_eq : xb = fastOuts (.xof .b) 0 0 256 := by
  unfold xb
  rw [xb0_eq, xb32_eq, xb64_eq, xb96_eq, xb128_eq, xb160_eq, xb192_eq, xb224_eq]
  exact fastOuts_eight _ _

theorem xbKeyed0_eq : xbKeyed0 = fastOuts (.xof .b) 64 0 32 := by kernel_rfl

theorem xbKeyed32_eq : xbKeyed32 = fastOuts (.xof .b) 64 32 32 := by kernel_rfl

theorem xbKeyed64_eq : xbKeyed64 = fastOuts (.xof .b) 64 64 32 := by kernel_rfl

theorem xbKeyed96_eq : xbKeyed96 = fastOuts (.xof .b) 64 96 32 := by kernel_rfl

theorem xbKeyed128_eq : xbKeyed128 = fastOuts (.xof .b) 64 128 32 := by kernel_rfl

theorem xbKeyed160_eq : xbKeyed160 = fastOuts (.xof .b) 64 160 32 := by kernel_rfl

theorem xbKeyed192_eq : xbKeyed192 = fastOuts (.xof .b) 64 192 32 := by kernel_rfl

theorem xbKeyed224_eq : xbKeyed224 = fastOuts (.xof .b) 64 224 32 := by kernel_rfl

theorem xbKeyed_eq : xbKeyed = fastOuts (.xof .b) 64 0 256 := by
  unfold xbKeyed
  rw [xbKeyed0_eq, xbKeyed32_eq, xbKeyed64_eq, xbKeyed96_eq, xbKeyed128_eq, xbKeyed160_eq, xbKeyed192_eq, xbKeyed224_eq]
  exact fastOuts_eight _ _

end Blake2.Kat
