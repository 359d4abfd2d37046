import Verif.Proofs.LeakWorld
import Verif.Properties.Feature
import Verif.Properties.World
/-!
# C58 and C61 for programs over the whole API
-/
namespace Blake2
open Spec

variable {a : Alg}

/-! ## C58 -/

theorem text_inj {s t : String} (h : "Hash(0x" ++ s ++ ")" = "Hash(0x" ++ t ++ ")") : s = t := by
  have := congrArg String.toList h
  simp only [String.toList_append, List.append_assoc] at this
  have h1 := List.append_cancel_left this
  exact String.toList_inj.1 (List.append_cancel_right h1)

theorem hexOf_inj {x y : List Byte} (h : hexOf x = hexOf y) : x = y := by
  have := congrArg unhex h
  rw [unhex_hexOf, unhex_hexOf] at this
  exact Option.some.inj this

theorem about_eq {α : Type} {l : List α} {i : Nat} (hi : i < l.length) (f : α → Answer) : about l i f = f l[i] := by
  unfold about
  rw [List.getElem?_eq_getElem hi]

/-- Calls that print the same according to the specification print the same. -/
theorem samePrint {w w' : World} {m n : Mem a} (r : MemRel a w m) (r' : MemRel a w' n) (dbg : Bool) {c d : ApiCall Platform}
    (hc : c.WellTyped a w) (hd : d.WellTyped a w') (hi : c.Indist a d) (hp : c.Prints → c.answer a w = d.answer a w') : SamePrint m n c := by
  constructor
  · rintro i rfl p q ep eq
    cases hi
    obtain ⟨_, e1, _⟩ := apiCall_refines r dbg (.debugParams i) hc (fun h => h)
    obtain ⟨_, e2, _⟩ := apiCall_refines r' dbg (.debugParams i) hd (fun h => h)
    have e := hp trivial
    simp only [ApiCall.exec, ep, eq, bind, Except.bind] at e1 e2
    injection e1 with e1
    injection e2 with e2
    injection e1 with _ e1
    injection e2 with _ e2
    rw [← e1, ← e2] at e
    injection e
  · rintro i hci h k eh ek
    have hlt : i < w.hashes.length ∧ i < w'.hashes.length ∧ (w.hashes[i]?.map Digest.bytes = w'.hashes[i]?.map Digest.bytes) := by
      rcases hci with rfl | rfl
      · cases hi
        have hc : i < w.hashes.length := hc
        have hd : i < w'.hashes.length := hd
        refine ⟨hc, hd, ?_⟩
        have e := hp trivial
        simp only [ApiCall.answer, about_eq hc, about_eq hd] at e
        injection e with e
        rw [List.getElem?_eq_getElem hc, List.getElem?_eq_getElem hd, Option.map_some, Option.map_some, hexOf_inj (String.ofList_inj.1 e)]
      · cases hi
        have hc : i < w.hashes.length := hc
        have hd : i < w'.hashes.length := hd
        refine ⟨hc, hd, ?_⟩
        have e := hp trivial
        simp only [ApiCall.answer, about_eq hc, about_eq hd] at e
        injection e with e
        rw [List.getElem?_eq_getElem hc, List.getElem?_eq_getElem hd, Option.map_some, Option.map_some,
          hexOf_inj (String.ofList_inj.1 (text_inj e))]
    obtain ⟨h1, h2, e⟩ := hlt
    rw [List.getElem?_eq_getElem h1, List.getElem?_eq_getElem h2, Option.map_some, Option.map_some] at e
    obtain ⟨h', eh', _, rh⟩ := r.hashes.get h1
    obtain ⟨k', ek', _, rk⟩ := r'.hashes.get h2
    rw [eh] at eh'
    rw [ek] at ek'
    cases eh'
    cases ek'
    rw [rh.asBytes, rk.asBytes, Option.some.inj e]

theorem runL_log (dbg : Bool) (prog prog' : List (ApiCall Platform)) {w w' : World} {m n : Mem a} (r : MemRel a w m) (r' : MemRel a w' n)
    (hm : PubMem m n) (h : World.IndistPrograms a dbg w w' prog prog') :
    Same (fun _ _ => True) (m.runL dbg prog) (n.runL dbg prog') := by
  induction prog generalizing prog' w w' m n with
  | nil => cases prog' with
    | nil => exact .pure trivial
    | cons => exact h.elim
  | cons c cs ih => cases prog' with
    | nil => exact h.elim
    | cons d ds =>
      obtain ⟨hc, hd, hi, hp, hn⟩ := h
      have hs := api_execL_same dbg hm hi (samePrint r r' dbg hc hd hi hp)
      by_cases pc : c.Panics a dbg w
      · have e := apiCall_panics r dbg c hc pc
        have hr := hs.res
        rw [api_execL_erase, e] at hr
        unfold Mem.runL
        refine Same.bind (R := fun _ _ => False) ⟨hs.log, ?_⟩ fun _ _ h => h.elim
        rw [api_execL_erase, e]
        generalize (d.execL dbg n).erase = y at hr ⊢
        cases hr
        exact .error _
      · obtain ⟨m1, e1, r1⟩ := apiCall_refines r dbg c hc pc
        have pd : ¬ d.Panics a dbg w' := by
          intro pd
          have hr := hs.res
          rw [api_execL_erase, api_execL_erase, e1, apiCall_panics r' dbg d hd pd] at hr
          cases hr
        obtain ⟨n1, e2, r2⟩ := apiCall_refines r' dbg d hd pd
        have hr := hs.res
        rw [api_execL_erase, api_execL_erase, e1, e2] at hr
        cases hr with
        | ok hpub =>
          unfold Mem.runL
          refine Same.bind (R := fun x y => x.1 = m1 ∧ y.1 = n1) ⟨hs.log, ?_⟩ ?_
          · rw [api_execL_erase, api_execL_erase, e1, e2]
            exact .ok ⟨rfl, rfl⟩
          · rintro ⟨x, o⟩ ⟨y, o'⟩ ⟨rfl, rfl⟩
            exact (ih ds r1 r2 hpub (hn pc)).bind fun _ _ _ => .pure trivial

/-- C58, whole programs. Two clients make the same calls, of any kind and in any order, on parameters, states, jobs and hashes of both
families, with byte strings of the same lengths; what they have printed in hexadecimal or by `Debug` is the same; keys, salts,
personalizations, messages, tags and tree parameters may differ. An observer of branches and addresses sees the same. A panic ends the
program, with the same log up to there. -/
theorem C58_programs (dbg : Bool) (prog prog' : List (ApiCall Platform)) (h : World.IndistPrograms a dbg {} {} prog prog') :
    (({} : Mem a).runL dbg prog).log = (({} : Mem a).runL dbg prog').log ∧
    (({} : Mem a).runL dbg prog).erase = ({} : Mem a).run dbg prog :=
  ⟨(runL_log dbg prog prog' memRel_empty memRel_empty ⟨.nil, .nil, .nil, .nil, .nil, .nil⟩ h).log, runL_erase dbg prog {}⟩

/-- A program with a secret: parameters with a key, used for a hash, a job in a batch with another one, and a state; the results are
compared with a tag, and a public hash is printed. -/
def secretProgram (key msg tag : List Byte) : List (ApiCall Platform) :=
  [.newParams .AVX2, .set 0 (.key key), .set 0 (.fanout 2), .hash 0 msg, .newJob 0 msg, .newParams .Portable, .newJob 1 [1, 2, 3],
   .hashMany [1, 0], .toHash 0, .toHash 1, .toHex 2, .debugHash 2, .eqBytes 0 tag, .eqHash 1 0, .asBytes 0, .toState 0,
   .onStates (.update 0 msg), .debugState 0, .finalize 0, .debugJob 0, .newTree .SSE41, .setTree 0 (.key key), .hashTree 0 msg,
   .debugTree 0, .eqHash 4 2, .debugParams 0, .set 0 (.hashLength 99), .newParams .AVX2]

instance {π : Type} (c : ApiCall π) : Decidable c.Prints := by cases c <;> unfold ApiCall.Prints <;> infer_instance

/-- The conditions of `World.IndistPrograms` that can be computed. -/
def guards (a : Alg) (dbg : Bool) : World → World → List (ApiCall Platform) → List (ApiCall Platform) → Bool
  | w, w', c :: cs, d :: ds =>
    decide (c.WellTyped a w) && decide (d.WellTyped a w') && decide (c.Prints → c.answer a w = d.answer a w') &&
      (decide (c.Panics a dbg w) || guards a dbg (c.next a w) (d.next a w') cs ds)
  | _, _, _, _ => true

theorem indist_of_guards (dbg : Bool) {prog prog' : List (ApiCall Platform)} (h : All2 (ApiCall.Indist a) prog prog') {w w' : World}
    (hg : guards a dbg w w' prog prog' = true) : World.IndistPrograms a dbg w w' prog prog' := by
  induction h generalizing w w' with
  | nil => exact trivial
  | cons r _ ih =>
    simp only [guards, Bool.and_eq_true, Bool.or_eq_true, decide_eq_true_eq] at hg
    exact ⟨hg.1.1.1, hg.1.1.2, r, hg.1.2, fun hn => ih (hg.2.resolve_left hn)⟩

theorem secretProgram_indist (dbg : Bool) : World.IndistPrograms .s dbg {} {} (secretProgram [1, 2] [3, 4, 5] [6, 7])
    (secretProgram [8, 9] [10, 11, 12] [13, 14]) := by
  refine indist_of_guards dbg ?_ ?_
  · unfold secretProgram
    repeat' first
      | exact All2.nil
      | refine All2.cons ?_ ?_
      | exact rfl
      | exact ⟨_, rfl, rfl⟩
      | exact ⟨_, rfl, trivial⟩
      | exact ⟨_, rfl, rfl, rfl⟩
  · revert dbg
    decide +kernel

/-- The answers differ, the logs do not. -/
example : World.answers .s {} (secretProgram [1, 2] [3, 4, 5] [6, 7]) ≠
    World.answers .s {} (secretProgram [8, 9] [10, 11, 12] [13, 14]) := by decide +kernel

/-- What is printed must be the same: printing a secret hash in hexadecimal tells the programs apart. -/
example : (({} : Mem .s).runL false [.oneShot .Portable [1], .toHex 0]).log ≠
    (({} : Mem .s).runL false [.oneShot .Portable [2], .toHex 0]).log := by decide +kernel

/-! ## C61 -/

/-- C61, whole programs. Whatever calls a program makes, of any kind and in any order, valid or not, it enters no function compiled for a
feature the machine does not have. -/
theorem C61_programs (e : Machine) (he : e.Proper) (dbg : Bool) (prog : List (ApiCall Bool)) :
    (∀ f, .enter f ∈ (({} : Mem a).runL dbg (prog.map (ApiCall.onPlatforms e.imp))).log → e.Has f) ∧
    (({} : Mem a).runL dbg (prog.map (ApiCall.onPlatforms e.imp))).erase = ({} : Mem a).run dbg (prog.map (ApiCall.onPlatforms e.imp)) := by
  refine ⟨(runL_uses dbg _ ⟨by simp, by simp, by simp, by simp, by simp⟩ fun c h => ?_).log, runL_erase dbg _ {}⟩
  obtain ⟨c', _, rfl⟩ := List.mem_map.1 h
  cases c' with
  | onStates op => cases op <;> first | exact trivial | exact he.allowed _
  | onTreeStates op => cases op <;> first | exact trivial | exact he.allowed _
  | _ => first | exact trivial | exact he.allowed _

/-- C61, programs all of whose values are made portable: no such function is entered, on any machine. -/
theorem C61_portable_programs (dbg : Bool) (prog : List (ApiCall Unit)) :
    ∀ f, .enter f ∉ (({} : Mem a).runL dbg (prog.map (ApiCall.onPlatforms fun _ => Platform.Portable))).log := by
  refine (runL_uses (P := fun _ => False) dbg _ ⟨by simp, by simp, by simp, by simp, by simp⟩ fun c h => ?_).log
  obtain ⟨c', _, rfl⟩ := List.mem_map.1 h
  cases c' with
  | onStates op => cases op <;> exact trivial
  | onTreeStates op => cases op <;> exact trivial
  | _ => exact trivial

/-- Parameters made portable and their clone made before that: the clone's jobs still run SSE4.1 code, those of the portable ones do not. -/
example : let e : Machine := ⟨true, false, false, true, true, false⟩
    e.Proper ∧
    .enter .sse41 ∈ (({} : Mem .s).runL false ([.newParams false, .cloneParams 0, .forcePortable 0, .newJob 1 [1], .hashMany [0],
      .toHash 0].map (ApiCall.onPlatforms e.imp))).log ∧
    .enter .sse41 ∉ (({} : Mem .s).runL false ([.newParams false, .cloneParams 0, .forcePortable 0, .newJob 0 [1], .hashMany [0],
      .toHash 0].map (ApiCall.onPlatforms e.imp))).log := by
  refine ⟨⟨?_, ?_, ?_⟩, ?_⟩ <;> decide +kernel

end Blake2
