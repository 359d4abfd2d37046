import Verif.Model.KatData
import Verif.Proofs.KatEval
/-!
# The vectors of blake2bp, evaluated
-/
namespace Blake2.Kat
open Spec

theorem bp0_eq : bp0 = fastOuts (.tree .b) 0 0 32 := by kernel_rfl

theorem bp32_eq : bp32 = fastOuts (.tree .b) 0 32 32 := by kernel_rfl

theorem bp64_eq : bp64 = fastOuts (.tree .b) 0 64 32 := by kernel_rfl

theorem bp96_eq : bp96 = fastOuts (.tree .b) 0 96 32 := by kernel_rfl

theorem bp128_eq : bp128 = fastOuts (.tree .b) 0 128 32 := by kernel_rfl

theorem bp160_eq : bp160 = fastOuts (.tree .b) 0 160 32 := by kernel_rfl

theorem bp192_eq : bp192 = fastOuts (.tree .b) 0 192 32 := by kernel_rfl

theorem bp224_eq : bp224 = fastOuts (.tree .b) 0 224 32 := by kernel_rfl

theorem bp_eq : bp = fastOuts (.tree .b) 0 0 256 := by
  unfold bp
  rw [bp0_eq, bp32_eq, bp64_eq, bp96_eq, bp128_eq, bp160_eq, bp192_eq, bp224_eq]
  exact fastOuts_eight _ _

theorem bpKeyed0_eq : bpKeyed0 = fastOuts (.tree .b) 64 0 32 := by kernel_rfl

theorem bpKeyed32_eq : bpKeyed32 = fastOuts (.tree .b) 64 32 32 := by kernel_rfl

theorem bpKeyed64_eq : bpKeyed64 = fastOuts (.tree .b) 64 64 32 := by kernel_rfl

theorem bpKeyed96_eq : bpKeyed96 = fastOuts (.tree .b) 64 96 32 := by kernel_rfl

theorem bpKeyed128_eq : bpKeyed128 = fastOuts (.tree .b) 64 128 32 := by kernel_rfl

theorem bpKeyed160_eq : bpKeyed160 = fastOuts (.tree .b) 64 160 32 := by kernel_rfl

theorem bpKeyed192_eq : bpKeyed192 = fastOuts (.tree .b) 64 192 32 := by kernel_rfl

theorem bpKeyed224_eq : bpKeyed224 = fastOuts (.tree .b) 64 224 32 := by kernel_rfl

theorem bpKeyed_eq : bpKeyed = fastOuts (.tree .b) 64 0 256 := by
  unfold bpKeyed
  rw [bpKeyed0_eq, bpKeyed32_eq, bpKeyed64_eq, bpKeyed96_eq, bpKeyed128_eq, bpKeyed160_eq, bpKeyed192_eq, bpKeyed224_eq]
  exact fastOuts_eight _ _

end Blake2.Kat
