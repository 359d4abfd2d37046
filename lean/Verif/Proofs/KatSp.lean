import Verif.Model.KatData
import Verif.Proofs.KatEval
/-!
# The vectors of blake2sp, evaluated
-/
namespace Blake2.Kat
open Spec

theorem sp0_eq : sp0 = fastOuts (.tree .s) 0 0 32 := by kernel_rfl

theorem sp32_eq : sp32 = fastOuts (.tree .s) 0 32 32 := by kernel_rfl

theorem sp64_eq : sp64 = fastOuts (.tree .s) 0 64 32 := by kernel_rfl

theorem sp96_eq : sp96 = fastOuts (.tree .s) 0 96 32 := by kernel_rfl

theorem sp128_eq : sp128 = fastOuts (.tree .s) 0 128 32 := by kernel_rfl

theorem sp160_eq : sp160 = fastOuts (.tree .s) 0 160 32 := by kernel_rfl

theorem sp192_eq : sp192 = fastOuts (.tree .s) 0 192 32 := by kernel_rfl

theorem sp224_eq : sp224 = fastOuts (.tree .s) 0 224 32 := by kernel_rfl

theorem sp_eq : sp = fastOuts (.tree .s) 0 0 256 := by
  unfold sp
  rw [sp0_eq, sp32_eq, sp64_eq, sp96_eq, sp128_eq, sp160_eq, sp192_eq, sp224_eq]
  exact fastOuts_eight _ _

theorem spKeyed0_eq : spKeyed0 = fastOuts (.tree .s) 32 0 32 := by kernel_rfl

theorem spKeyed32_eq : spKeyed32 = fastOuts (.tree .s) 32 32 32 := by kernel_rfl

theorem spKeyed64_eq : spKeyed64 = fastOuts (.tree .s) 32 64 32 := by kernel_rfl

theorem spKeyed96_eq : spKeyed96 = fastOuts (.tree .s) 32 96 32 := by kernel_rfl

theorem spKeyed128_eq : spKeyed128 = fastOuts (.tree .s) 32 128 32 := by kernel_rfl

theorem spKeyed160_eq : spKeyed160 = fastOuts (.tree .s) 32 160 32 := by kernel_rfl

theorem spKeyed192_eq : spKeyed192 = fastOuts (.tree .s) 32 192 32 := by kernel_rfl

theorem spKeyed224_eq : spKeyed224 = fastOuts (.tree .s) 32 224 32 := by kernel_rfl

theorem spKeyed_eq : spKeyed = fastOuts (.tree .s) 32 0 256 := by
  unfold spKeyed
  rw [spKeyed0_eq, spKeyed32_eq, spKeyed64_eq, spKeyed96_eq, spKeyed128_eq, spKeyed160_eq, spKeyed192_eq, spKeyed224_eq]
  exact fastOuts_eight _ _

end Blake2.Kat
