import Verif.Proofs.RawSafe
import Verif.Properties.Safety
/-!
# C62: every single unchecked read stays inside the bytes the loop was given

`Model/Raw` has the compression loops with each pointer step and each 16- or 32-byte load on its own, undefined (`.ub`) as soon
as one byte of it is outside the object the pointer was made from, and with the debug assertions compiled only if `dbg`.
-/
namespace Blake2
open Spec

variable {a : Alg}

/-- A release build of the raw loops returns what a debug build returns, unless the debug build stops. -/
theorem Raw.compressLoop_release {N : Nat} {R : Type} (o : VImpl a N R) (tm : Vector Raw.Ptr N → Res (Vector R 16))
    (jobs jobs' : Vector (Job a) N) (fin : Bool) (s : Stride) (h : Raw.compressLoop true o tm jobs fin s = .ok jobs') :
    Raw.compressLoop false o tm jobs fin s = .ok jobs' := by
  have h2 : ∀ l : List (Job a), (l.forM fun job => Raw.debugAsserts false a job.input fin) = .ok () := by
    intro l
    induction l with
    | nil => rfl
    | cons j js ih => exact ih
  unfold Raw.compressLoop at h ⊢
  rw [h2]
  cases h1 : jobs.toList.forM fun job => Raw.debugAsserts true a job.input fin with
  | error e => rw [h1] at h; cases h
  | ok _ => rw [h1] at h; exact h

theorem Raw.compress1Loop_release' (cb : Raw.CompressBlock a) (rd : List Byte → Nat → Nat → Res (List Byte)) (input : List Byte)
    (words : Vector (Word a) 8) (count : Count a) (ln fin : Bool) (s : Stride) (w : Vector (Word a) 8)
    (h : Raw.compress1Loop true a cb rd input words count ln fin s = .ok w) :
    Raw.compress1Loop false a cb rd input words count ln fin s = .ok w := by
  cases h1 : inputDebugAsserts a input fin with
  | error e =>
    unfold Raw.compress1Loop Raw.debugAsserts at h
    rw [if_pos rfl, h1] at h
    cases h
  | ok _ => rw [Raw.compress1Loop_release cb rd input words count ln fin s h1]; exact h

/-- C62. In a release build, with no assertion to stop it, no compression loop of any platform reads a byte outside the input it is
given, panics or runs forever: for every input, of every length including those no caller passes, every state, every stride. -/
theorem C62_release_loops (imp : Platform) (fin : Bool) (stride : Stride) :
    (∀ (input : List Byte) (words : Vector (Word a) 8) (count : Count a) (lastNode : Bool),
      ∃ w, Raw.compress1 false a imp input words count lastNode fin stride = .ok w) ∧
    (∀ jobs : Vector (Job a) (hiDegree a), hiDegree a ≤ implDegree a imp →
      ∃ jobs', Raw.compressHi false a imp jobs fin stride = .ok jobs') ∧
    (∀ jobs : Vector (Job a) (loDegree a), loDegree a ≤ implDegree a imp →
      ∃ jobs', Raw.compressLo false a imp jobs fin stride = .ok jobs') :=
  ⟨fun input words count ln => Raw.compress1_total a imp input words count ln fin stride,
   fun jobs h => Raw.compressHi_total a imp h jobs fin stride,
   fun jobs h => Raw.compressLo_total a imp h jobs fin stride⟩

/-- The only loops that exist: with them the two hypotheses on degrees say "this machine has the instructions". -/
example : hiDegree .b ≤ implDegree .b .AVX2 ∧ ¬ hiDegree .b ≤ implDegree .b .SSE41 ∧ loDegree .b ≤ implDegree .b .SSE41 ∧
    ¬ loDegree .b ≤ implDegree .b .Portable := by decide

/-- The model does see a read past the end: the fourth load of a block that is one byte short. -/
example : Raw.load256 (Raw.asPtr (List.replicate 127 0)) 2 ≠ .error .ub ∧
    Raw.load256 (Raw.asPtr (List.replicate 127 0)) 3 = .error .ub ∧
    Raw.SSse41.compressBlock (List.replicate 63 0) (Vector.replicate 8 0) 0 0 0 = .error .ub := by
  refine ⟨?_, ?_, ?_⟩
  · rw [Raw.load256_eq, if_pos (by simp [Raw.Ptr.Fits, Raw.asPtr])]; exact nofun
  · rw [Raw.load256_eq, if_neg (by simp [Raw.Ptr.Fits, Raw.asPtr])]
  · rfl

/-- C62. In a debug build the loops whose reads are checked one by one are, as functions, the loops of the rest of the model. So
everything proved about `State`, `many`, the tree variants and the command holds with every read checked. -/
theorem C62_debug_loops :
    Raw.compress1 true = Blake2.compress1 ∧ Raw.compressHi true = Blake2.compressHi ∧ Raw.compressLo true = Blake2.compressLo :=
  ⟨Raw.compress1_eq, Raw.compressHi_eq, Raw.compressLo_eq⟩

/-- C62. What a loop of the model returns, the loop with checked reads returns, in debug and in release builds. -/
theorem C62_same_results (dbg : Bool) (imp : Platform) (fin : Bool) (stride : Stride) :
    (∀ (input : List Byte) (words : Vector (Word a) 8) (count : Count a) (lastNode : Bool) w,
      compress1 a imp input words count lastNode fin stride = .ok w →
      Raw.compress1 dbg a imp input words count lastNode fin stride = .ok w) ∧
    (∀ (jobs : Vector (Job a) (hiDegree a)) jobs', compressHi a imp jobs fin stride = .ok jobs' →
      Raw.compressHi dbg a imp jobs fin stride = .ok jobs') ∧
    (∀ (jobs : Vector (Job a) (loDegree a)) jobs', compressLo a imp jobs fin stride = .ok jobs' →
      Raw.compressLo dbg a imp jobs fin stride = .ok jobs') := by
  rw [← Raw.compress1_eq, ← Raw.compressHi_eq, ← Raw.compressLo_eq]
  cases dbg
  · refine ⟨fun input words count ln w h => ?_, fun jobs jobs' h => ?_, fun jobs jobs' h => ?_⟩
    · cases a <;> cases imp <;> exact Raw.compress1Loop_release' _ _ _ _ _ _ _ _ _ h
    · cases a <;> cases imp
      · cases h
      · cases h
      · exact Raw.compressLoop_release _ _ _ _ _ _ h
      · cases h
      · cases h
      · exact Raw.compressLoop_release _ _ _ _ _ _ h
    · cases a <;> cases imp
      · cases h
      · exact Raw.compressLoop_release _ _ _ _ _ _ h
      · exact Raw.compressLoop_release _ _ _ _ _ _ h
      · cases h
      · exact Raw.compressLoop_release _ _ _ _ _ _ h
      · exact Raw.compressLoop_release _ _ _ _ _ _ h
  · exact ⟨fun _ _ _ _ _ h => h, fun _ _ h => h, fun _ _ h => h⟩

/-- Four inputs of different lengths, one of them empty, satisfy the hypothesis. -/
example : ∃ jobs', Raw.compressHi false .b .AVX2
    #v[⟨List.replicate 300 1, Vector.replicate 8 0, 0, false⟩, ⟨[], Vector.replicate 8 0, 0, true⟩,
       ⟨List.replicate 128 2, Vector.replicate 8 0, 0, false⟩, ⟨[7], Vector.replicate 8 0, 0, false⟩] true .Serial = .ok jobs' := by
  obtain ⟨j, h⟩ := (C22_compression_loops (a := .b) .AVX2 true .Serial).2.1
    #v[⟨List.replicate 300 1, Vector.replicate 8 0, 0, false⟩, ⟨[], Vector.replicate 8 0, 0, true⟩,
       ⟨List.replicate 128 2, Vector.replicate 8 0, 0, false⟩, ⟨[7], Vector.replicate 8 0, 0, false⟩] (by decide)
    (fun i => by
      refine ⟨.inl rfl, ?_⟩
      revert i; decide)
  exact ⟨j, (C62_same_results (a := .b) false .AVX2 true .Serial).2.1 _ _ h⟩

end Blake2
