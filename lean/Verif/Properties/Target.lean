import Verif.Proofs.Target
import Verif.Properties.World
/-!
# C71: targets other than x86
-/
namespace Blake2
open Spec Target

variable {a : Alg}

/-- C71. On every target, x86 or another of either byte order, every program over the whole public API gets the specified answers. The specification
(`World.answers`) does not mention targets. -/
theorem C71_programs (e : Arch) (dbg : Bool) (prog : List (ApiCall Platform)) (hv : World.ValidProgram a dbg {} prog) :
    ∃ m, Target.run e dbg ({} : Mem a) prog = .ok (m, World.answers a {} prog) := by
  rw [run_eq]
  exact C46_programs dbg prog hv

/-- C71. After any program, on every target, a well-typed call panics exactly if it is one of the documented
panics, and otherwise returns the specified answer. -/
theorem C71_outcome (e : Arch) (dbg : Bool) (prog : List (ApiCall Platform)) (hv : World.ValidProgram a dbg {} prog)
    (c : ApiCall Platform) (hw : c.WellTyped a (World.after a {} prog)) :
    ∃ m os, Target.run e dbg ({} : Mem a) prog = .ok (m, os) ∧
      (c.Panics a dbg (World.after a {} prog) → Target.exec e dbg m c = .error .panic) ∧
      (¬ c.Panics a dbg (World.after a {} prog) →
        ∃ m', Target.exec e dbg m c = .ok (m', c.answer a (World.after a {} prog))) := by
  simp only [run_eq, exec_eq]
  exact C46_outcome dbg prog hv c hw

/-- C71. In particular, on every target, `blake2b(input)` and `blake2s(input)` are the digests of RFC 7693. -/
theorem C71_hash (e : Arch) (plat : Platform) (input : List Byte) :
    ∃ h, Target.hash e (Params.new a plat) input = .ok h ∧ h.asBytes = .ok (Spec.hash a (Config.default a) input) := by
  rw [Target.hash_eq]
  cases a with
  | b =>
    obtain ⟨h, e1, e2, _⟩ := C01_blake2b plat input
    exact ⟨h, e1, e2⟩
  | s =>
    obtain ⟨h, e1, e2, _⟩ := C02_blake2s plat input
    exact ⟨h, e1, e2⟩

example : World.ValidProgram .b true {} (sampleProgram.map (ApiCall.onPlatforms fun _ => Platform.Portable)) := by decide +kernel

/-- The two kinds of target differ: the same bytes are different integers. -/
example : fromNeBytes .little 32 4 [1, 2, 3, 4] = 0x04030201 ∧ fromNeBytes .big 32 4 [1, 2, 3, 4] = 0x01020304 ∧
    toNeBytes .little 4 (0x04030201 : BitVec 32) = [1, 2, 3, 4] ∧ toNeBytes .big 4 (0x04030201 : BitVec 32) = [4, 3, 2, 1] := by
  decide +kernel

/-- Code that took the integers as they are stored would return something else on a target of the second kind. -/
example : toNeBytes .big 4 (0x04030201 : BitVec 32) ≠ toLeBytes .big 4 (0x04030201 : BitVec 32) ∧
    swapBytes 8 (0x0102030405060708 : BitVec 64) = 0x0807060504030201 := by
  decide +kernel

end Blake2
