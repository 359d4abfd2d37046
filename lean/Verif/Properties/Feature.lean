import Verif.Proofs.LeakFeature
import Verif.Proofs.LeakErase
import Verif.Properties.Trace
import Verif.Properties.TraceTree
/-!
# No instruction the processor does not have: C61

The SIMD code is in six functions compiled with `#[target_feature(enable = ...)]`; running one on a processor without the feature is
undefined behaviour. `m.log` contains `.enter f` for each time the run of `m` enters a function compiled for feature `f`, also if
the run panics later. `m.erase` is what the run does otherwise.
-/
namespace Blake2
open Spec

variable {a : Alg}

/-- The processor has the feature. -/
def Machine.Has (e : Machine) : Feature → Prop
  | .sse41 => e.x86 = true ∧ e.cpuSse41 = true
  | .avx2 => e.x86 = true ∧ e.cpuAvx2 = true

/-- The processor has what the build assumes, and AVX2 does not come without SSE4.1. -/
structure Machine.Proper (e : Machine) : Prop where
  buildSse41 : e.buildSse41 = true → e.cpuSse41 = true
  buildAvx2 : e.buildAvx2 = true → e.cpuAvx2 = true
  avx2_sse41 : e.cpuAvx2 = true → e.cpuSse41 = true

/-- All a client can choose about the implementation of a new hasher: to leave it detected, or to call `force_portable`. -/
def Machine.imp (e : Machine) (portable : Bool) : Platform := if portable then .Portable else detect e

theorem Machine.Proper.allowed {e : Machine} (h : e.Proper) (portable : Bool) : Allowed e.Has (e.imp portable) := by
  obtain ⟨x, bs, ba, st, cs, ca⟩ := e
  obtain ⟨h1, h2, h3⟩ := h
  cases portable
  · revert h1 h2 h3
    cases x <;> cases bs <;> cases ba <;> cases st <;> cases cs <;> cases ca <;>
      simp [Machine.imp, detect, avx2IfSupported, sse41IfSupported, Allowed, Machine.Has]
  · exact trivial

/-- C61, histories. Whatever a program does with hashers made on the machine, of both kinds and in any order, it enters no function
compiled for a feature the machine does not have. -/
theorem C61_histories (e : Machine) (he : e.Proper) (dbg : Bool) (ops : List (Op Bool)) :
    (∀ f, .enter f ∈ (execAllL dbg ([] : List (State a)) (ops.map (Op.onPlatforms e.imp))).log → e.Has f) ∧
    (execAllL dbg ([] : List (State a)) (ops.map (Op.onPlatforms e.imp))).erase = execAll dbg [] (ops.map (Op.onPlatforms e.imp)) := by
  refine ⟨(execAllL_uses dbg _ (by simp) fun op h => ?_).log, execAllL_erase dbg [] _⟩
  obtain ⟨op', _, rfl⟩ := List.mem_map.1 h
  cases op' <;> first | exact trivial | exact he.allowed _

/-- A machine with SSE4.1 only, found at run time; its hashers do enter SSE4.1 code, and so does a batch whose first hasher is such a
one; one made with `force_portable` does not. -/
example : let e : Machine := ⟨true, false, false, true, true, false⟩
    e.Proper ∧
    .enter .sse41 ∈ (execAllL false ([] : List (State .s)) ([.create false [], .finalize 0].map (Op.onPlatforms e.imp))).log ∧
    .enter .sse41 ∈ (execAllL false ([] : List (State .b)) ([.create false [], .create true [],
      .updateMany [(0, List.replicate 129 1), (1, List.replicate 129 1)]].map (Op.onPlatforms e.imp))).log ∧
    .enter .sse41 ∉ (execAllL false ([] : List (State .s)) ([.create true [], .finalize 0].map (Op.onPlatforms e.imp))).log := by
  refine ⟨⟨?_, ?_, ?_⟩, ?_⟩ <;> decide +kernel

/-- The third condition of `Proper` is needed: on a processor that claimed AVX2 without SSE4.1, SSE4.1 code would run. -/
example : let e : Machine := ⟨true, false, false, true, false, true⟩
    .enter .sse41 ∈ (execAllL false ([] : List (State .s)) ([.create false [], .finalize 0].map (Op.onPlatforms e.imp))).log ∧ ¬ e.Has .sse41 := by
  refine ⟨?_, fun h => ?_⟩
  · decide +kernel
  · cases h.2

/-- C61, histories of the tree variants. -/
theorem C61_tree_histories (e : Machine) (he : e.Proper) (dbg : Bool) (ops : List (POp Bool)) :
    (∀ f, .enter f ∈ (pexecAllL dbg ([] : List (PState a)) (ops.map (POp.onPlatforms e.imp))).log → e.Has f) ∧
    (pexecAllL dbg ([] : List (PState a)) (ops.map (POp.onPlatforms e.imp))).erase = pexecAll dbg [] (ops.map (POp.onPlatforms e.imp)) := by
  refine ⟨(pexecAllL_uses dbg _ (by simp) fun op h => ?_).log, pexecAllL_erase dbg [] _⟩
  obtain ⟨op', _, rfl⟩ := List.mem_map.1 h
  cases op' <;> first | exact trivial | exact he.allowed _

example : let e : Machine := ⟨true, true, false, false, true, false⟩
    e.Proper ∧ .enter .sse41 ∈ (pexecAllL false ([] : List (PState .b)) ([.create false [], .finalize 0].map (POp.onPlatforms e.imp))).log := by
  refine ⟨⟨?_, ?_, ?_⟩, ?_⟩ <;> decide +kernel

/-- C61, the one-shot functions. -/
theorem C61_one_shot (e : Machine) (he : e.Proper) (portable : Bool) (calls : List Setter) (pcalls : List PSetter) (x : List Byte) :
    (∀ f, .enter f ∈ (do let p ← (Params.new a (e.imp portable)).buildL calls; p.hashL x).log → e.Has f) ∧
    (∀ f, .enter f ∈ (do let p ← (PParams.new a (e.imp portable)).buildL pcalls; p.hashL x).log → e.Has f) :=
  ⟨((buildL_uses calls _).bind fun _ hp => hashL_uses (by rw [hp]; exact he.allowed portable) x).log,
   ((PParams.buildL_uses pcalls _).bind fun _ hp => phashL_uses (by rw [hp]; exact he.allowed portable) x).log⟩

/-- C61, batches: make a job for each request, run `hash_many` on all of them, read the hashes. -/
theorem C61_hash_many (e : Machine) (he : e.Proper) (dbg : Bool) (reqs : List (Bool × List Setter × List Byte)) :
    ∀ f, .enter f ∈ (hashAllL (a := a) dbg (reqs.map fun r => (e.imp r.1, r.2))).log → e.Has f := by
  refine (hashAllL_uses dbg _ fun r h => ?_).log
  obtain ⟨r', _, rfl⟩ := List.mem_map.1 h
  exact he.allowed _

example : let e : Machine := ⟨true, false, false, true, true, true⟩
    e.Proper ∧ .enter .avx2 ∈ (hashAllL (a := .s) false (List.replicate 8 (e.imp false, [], []))).log := by
  refine ⟨⟨?_, ?_, ?_⟩, ?_⟩ <;> decide +kernel

theorem setter_forcePortable (s : Setter) (p : Params a) : s.run p.forcePortable = (s.run p).map Params.forcePortable := by
  cases a <;> cases s <;>
    simp only [Setter.run, Params.setHashLength, Params.setKey, Params.setSalt, Params.setPersonal, Params.setFanout, Params.setMaxDepth,
      Params.setMaxLeafLength, Params.setNodeOffset, Params.setNodeDepth, Params.setInnerHashLength, Params.setLastNode,
      Params.forcePortable, bind, Except.bind, Except.map] <;>
    (repeat' split) <;> simp_all

theorem build_forcePortable (calls : List Setter) (p : Params a) :
    p.forcePortable.build calls = (p.build calls).map Params.forcePortable := by
  induction calls generalizing p with
  | nil => rfl
  | cons c cs ih =>
    show (c.run p.forcePortable >>= fun p => p.build cs) = ((c.run p >>= fun p => p.build cs) : Res (Params a)).map _
    rw [setter_forcePortable]
    cases c.run p with
    | error _ => rfl
    | ok q => exact ih q

theorem psetter_forcePortable (s : PSetter) (p : PParams a) : s.run p.forcePortable = (s.run p).map PParams.forcePortable := by
  cases s <;>
    simp only [PSetter.run, PParams.setHashLength, PParams.setKey, PParams.forcePortable, bind, Except.bind, Except.map] <;>
    (repeat' split) <;> simp_all

theorem pbuild_forcePortable (calls : List PSetter) (p : PParams a) :
    p.forcePortable.build calls = (p.build calls).map PParams.forcePortable := by
  induction calls generalizing p with
  | nil => rfl
  | cons c cs ih =>
    show (c.run p.forcePortable >>= fun p => p.build cs) = ((c.run p >>= fun p => p.build cs) : Res (PParams a)).map _
    rw [psetter_forcePortable]
    cases c.run p with
    | error _ => rfl
    | ok q => exact ih q

/-- C61. A program all of whose hashers were made with `force_portable` enters no SIMD code at all, whatever the machine. Made with it
means: `force_portable` was called after or before any of the builder calls, which is the same as having found no SIMD. -/
theorem C61_force_portable (dbg : Bool) (ops : List (Op Unit)) (pops : List (POp Unit)) (f : Feature) :
    (∀ (plat : Platform) (calls : List Setter), (Params.new a .Portable).build calls =
        ((Params.new a plat).build calls).map Params.forcePortable ∧
      (Params.new a plat).forcePortable.build calls = (Params.new a .Portable).build calls) ∧
    (∀ (plat : Platform) (calls : List PSetter), (PParams.new a .Portable).build calls =
        ((PParams.new a plat).build calls).map PParams.forcePortable ∧
      (PParams.new a plat).forcePortable.build calls = (PParams.new a .Portable).build calls) ∧
    .enter f ∉ (execAllL dbg ([] : List (State a)) (ops.map (Op.onPlatforms fun _ => .Portable))).log ∧
    .enter f ∉ (pexecAllL dbg ([] : List (PState a)) (pops.map (POp.onPlatforms fun _ => .Portable))).log := by
  refine ⟨fun plat calls => ⟨build_forcePortable calls (Params.new a plat), rfl⟩,
    fun plat calls => ⟨pbuild_forcePortable calls (PParams.new a plat), rfl⟩, ?_, ?_⟩
  · refine fun hf => (execAllL_uses (P := fun _ => False) dbg _ (by simp) fun op h => ?_).log f hf
    obtain ⟨op', hm, rfl⟩ := List.mem_map.1 h
    cases op' <;> exact trivial
  · refine fun hf => (pexecAllL_uses (P := fun _ => False) dbg _ (by simp) fun op h => ?_).log f hf
    obtain ⟨op', hm, rfl⟩ := List.mem_map.1 h
    cases op' <;> exact trivial

end Blake2
