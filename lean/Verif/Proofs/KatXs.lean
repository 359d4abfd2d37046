import Verif.Model.KatData
import Verif.Proofs.KatEval
/-!
# The vectors of blake2xs, evaluated
-/
namespace Blake2.Kat
open Spec

theorem xs0_eq : xs0 = fastOuts (.xof .s) 0 0 32 := by kernel_rfl

theorem xs32_eq : xs32 = fastOuts (.xof .s) 0 32 32 := by kernel_rfl

theorem xs64_eq : xs64 = fastOuts (.xof .s) 0 64 32 := by kernel_rfl

theorem xs96_eq : xs96 = fastOuts (.xof .s) 0 96 32 := by kernel_rfl

theorem xs128_eq : xs128 = fastOuts (.xof .s) 0 128 32 := by kernel_rfl

theorem xs160_eq : xs160 = fastOuts (.xof .s) 0 160 32 := by kernel_rfl

theorem xs192_eq : xs192 = fastOuts (.xof .s) 0 192 32 := by kernel_rfl

theorem xs224_eq : xs224 = fastOuts (.xof .s) 0 224 32 := by kernel_rfl

theorem xs_eq : xs = fastOuts (.xof .s) 0 0 256 := by
  unfold xs
  rw [xs0_eq, xs32_eq, xs64_eq, xs96_eq, xs128_eq, xs160_eq, xs192_eq, xs224_eq]
  exact fastOuts_eight _ _

theorem xsKeyed0_eq : xsKeyed0 = fastOuts (.xof .s) 32 0 32 := by kernel_rfl

theorem xsKeyed32_eq : xsKeyed32 = fastOuts (.xof .s) 32 32 32 := by kernel_rfl

theorem xsKeyed64_eq : xsKeyed64 = fastOuts (.xof .s) 32 64 32 := by kernel_rfl

theorem xsKeyed96_eq : xsKeyed96 = fastOuts (.xof .s) 32 96 32 := by kernel_rfl

theorem xsKeyed128_eq : xsKeyed128 = fastOuts (.xof .s) 32 128 32 := by kernel_rfl

theorem xsKeyed160_eq : xsKeyed160 = fastOuts (.xof .s) 32 160 32 := by kernel_rfl

theorem xsKeyed192_eq : xsKeyed192 = fastOuts (.xof .s) 32 192 32 := by kernel_rfl

theorem xsKeyed224_eq : xsKeyed224 = fastOuts (.xof .s) 32 224 32 := by kernel_rfl

theorem xsKeyed_eq : xsKeyed = fastOuts (.xof .s) 32 0 256 := by
  unfold xsKeyed
  rw [xsKeyed0_eq, xsKeyed32_eq, xsKeyed64_eq, xsKeyed96_eq, xsKeyed128_eq, xsKeyed160_eq, xsKeyed192_eq, xsKeyed224_eq]
  exact fastOuts_eight _ _

end Blake2.Kat
