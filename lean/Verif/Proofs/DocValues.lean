import Verif.Model.DocExamples
import Verif.Proofs.FastEval
import Verif.Proofs.KernelRfl
import Verif.Properties.UnitTests
/-!
# The values in the documentation, computed by the kernel from the specification (C66)
-/
namespace Blake2
open Spec Cli

theorem docFoo_right (a : Alg) : docFoo a = hexOf (Spec.hash a (Config.default a) (ascii "foo")) := by
  rw [Fast.hash_eq]
  cases a <;> exact toList_of (by kernel_rfl)

theorem docChain_right (a : Alg) : docChainHash a = hexOf (Spec.hash a (configOf a (docChainCalls a)) (ascii "foobarbaz")) := by
  rw [Fast.hash_eq]
  cases a <;> exact toList_of (by kernel_rfl)

theorem docTreeFoo_right (a : Alg) : docTreeFoo a = hexOf (Spec.hashP a (maxOut a) [] (ascii "foo")) := by
  rw [Fast.hashP_eq]
  cases a <;> exact toList_of (by kernel_rfl)

theorem docTreeChain_right (a : Alg) : docTreeChainHash a =
    hexOf (Spec.hashP a (pconfigOf a (docTreeCalls a)).hashLength (pconfigOf a (docTreeCalls a)).key (ascii "foobarbaz")) := by
  rw [Fast.hashP_eq]
  cases a <;> exact toList_of (by kernel_rfl)

theorem docTreeFoobar_right (a : Alg) : docTreeFoobar a = hexOf (Spec.hashP a (maxOut a) [] (ascii "foobar")) := by
  rw [Fast.hashP_eq]
  cases a <;> exact toList_of (by kernel_rfl)

end Blake2
