import Verif.Model.InPlace
import Verif.Properties.Safety
/-!
# What a panicking builder call leaves behind: C51
-/
namespace Blake2
open Spec

variable {a : Alg}

theorem InPlace.block_cons {σ : Type} (m : InPlace σ) (ms : List (InPlace σ)) (x : σ) : InPlace.block (m :: ms) x =
    match m x with
    | (.ok (), y) => InPlace.block ms y
    | (.error e, y) => (.error e, y) := rfl

theorem InPlace.block_assign {σ : Type} (f : σ → σ) (ms : List (InPlace σ)) (x : σ) :
    InPlace.block (InPlace.assign f :: ms) x = InPlace.block ms (f x) := rfl

theorem InPlace.block_check {σ : Type} (c : Bool) (ms : List (InPlace σ)) (x : σ) :
    InPlace.block (InPlace.check (rassert c) :: ms) x = if c then InPlace.block ms x else (.error .panic, x) := by
  cases c <;> rfl

theorem copyRange_zeros {n : Nat} {src : List Byte} (h : src.length ≤ n) :
    copyRange (List.replicate n 0) 0 src.length src = .ok (src ++ List.replicate (n - src.length) 0) := by
  unfold copyRange
  rw [if_pos ⟨Nat.zero_le _, by simpa using h, by omega⟩]
  simp

theorem InPlace.copy_zeros {σ : Type} (get : σ → List Byte) (set : σ → List Byte → σ) {n : Nat} {src : List Byte}
    (h : src.length ≤ n) (x : σ) (hx : get x = List.replicate n 0) :
    InPlace.block [InPlace.copy get set src] x = (.ok (), set x (src ++ List.replicate (n - src.length) 0)) := by
  rw [InPlace.block_cons, InPlace.copy, hx, copyRange_zeros h]
  rfl

theorem keybytes_le_bb : a.keybytes ≤ a.bb := by cases a <;> decide

/-- The methods in place and the methods of the model without memory do the same; where the latter panic, the former leave
the value as it was. -/
theorem inPlace_eq (c : Setter) (p : Params a) : c.inPlace p =
    match c.run p with
    | .ok p' => (.ok (), p')
    | .error e => (.error e, p) := by
  cases c with
  | hashLength n =>
    unfold Setter.inPlace
    simp only [InPlace.block_check, Setter.run, Params.setHashLength]
    by_cases h : (decide (1 ≤ n) && decide (n ≤ a.outbytes)) = true
    · rw [h]; rfl
    · rw [Bool.not_eq_true] at h
      rw [h]; rfl
  | innerHashLength n =>
    unfold Setter.inPlace
    simp only [InPlace.block_check, Setter.run, Params.setInnerHashLength]
    by_cases h : n ≤ a.outbytes <;> simp only [h, decide_true, decide_false] <;> rfl
  | key k =>
    unfold Setter.inPlace
    simp only [InPlace.block_check, InPlace.block_assign, Setter.run, Params.setKey]
    by_cases h : k.length ≤ a.keybytes
    · simp only [h, decide_true, if_true]
      rw [InPlace.copy_zeros (fun p : Params a => p.keyBlock) _ (Nat.le_trans h keybytes_le_bb) _ rfl]
      simp only [rassert, if_true, bind, Except.bind, copyRange_zeros (Nat.le_trans h keybytes_le_bb)]
    · simp only [h, decide_false]; rfl
  | salt k =>
    unfold Setter.inPlace
    simp only [InPlace.block_check, InPlace.block_assign, Setter.run, Params.setSalt]
    by_cases h : k.length ≤ a.saltbytes
    · simp only [h, decide_true, if_true]
      rw [InPlace.copy_zeros (fun p : Params a => p.salt) _ h _ rfl]
      simp only [rassert, if_true, bind, Except.bind, copyRange_zeros h]
    · simp only [h, decide_false]; rfl
  | personal k =>
    unfold Setter.inPlace
    simp only [InPlace.block_check, InPlace.block_assign, Setter.run, Params.setPersonal]
    by_cases h : k.length ≤ a.personalbytes
    · simp only [h, decide_true, if_true]
      rw [InPlace.copy_zeros (fun p : Params a => p.personal) _ h _ rfl]
      simp only [rassert, if_true, bind, Except.bind, copyRange_zeros h]
    · simp only [h, decide_false]; rfl
  | nodeOffset n =>
    cases a with
    | b => rfl
    | s =>
      unfold Setter.inPlace
      simp only [InPlace.block_check, Setter.run, Params.setNodeOffset]
      by_cases h : n.toNat < 1 <<< 48 <;> simp only [h, decide_true, decide_false] <;> rfl
  | _ => rfl

/-- The same of the tree variants. -/
theorem pinPlace_eq (c : PSetter) (p : PParams a) : c.inPlace p =
    match c.run p with
    | .ok p' => (.ok (), p')
    | .error e => (.error e, p) := by
  cases c with
  | hashLength n =>
    unfold PSetter.inPlace
    simp only [InPlace.block_check, PSetter.run, PParams.setHashLength]
    by_cases h : (decide (1 ≤ n) && decide (n ≤ a.outbytes)) = true
    · rw [h]; rfl
    · rw [Bool.not_eq_true] at h
      rw [h]; rfl
  | key k =>
    unfold PSetter.inPlace
    simp only [InPlace.block_check, InPlace.block_assign, PSetter.run, PParams.setKey]
    by_cases h : k.length ≤ a.keybytes
    · simp only [h, decide_true, if_true]
      rw [InPlace.copy_zeros (fun p : PParams a => p.key) _ h _ rfl]
      simp only [rassert, if_true, bind, Except.bind, copyRange_zeros h]
    · simp only [h, decide_false]; rfl

/-- C51. A builder call whose argument is out of range panics and leaves the `Params` exactly as it was. -/
theorem C51_rejected (p : Params a) (c : Setter) (h : ¬ c.InRange a) : c.inPlace p = (.error .panic, p) := by
  rw [inPlace_eq, run_panics p c h]

example : (Setter.key (List.replicate 65 7)).inPlace (Params.new .b .AVX2) = (.error .panic, Params.new .b .AVX2) :=
  C51_rejected _ _ (by decide)

theorem C51_tree_rejected (p : PParams a) (c : PSetter) (h : ¬ c.InRange a) : c.inPlace p = (.error .panic, p) := by
  rw [pinPlace_eq, prun_panics p c h]

example : (PSetter.hashLength 0).inPlace (PParams.new .s .SSE41) = (.error .panic, PParams.new .s .SSE41) :=
  C51_tree_rejected _ _ (by decide)

/-- C51. A client who catches every panic of a sequence of builder calls, and goes on, holds afterwards the `Params` that the
calls with arguments in range would have built by themselves; and exactly the other calls panicked. -/
theorem C51_caught (plat : Platform) (calls : List Setter) :
    ∃ p, (Params.new a plat).build (calls.filter fun c => decide (c.InRange a)) = .ok p ∧
      InPlace.caughtAll (calls.map Setter.inPlace) (Params.new a plat) = (calls.map fun c => decide (c.InRange a), p) := by
  generalize Params.new a plat = q
  induction calls generalizing q with
  | nil => exact ⟨q, rfl, rfl⟩
  | cons c cs ih =>
    by_cases h : c.InRange a
    · obtain ⟨q', e⟩ : ∃ q', c.run q = .ok q' := (C16_panics_iff q c).2 h
      obtain ⟨p, h1, h2⟩ := ih q'
      refine ⟨p, ?_, ?_⟩
      · rw [List.filter_cons_of_pos (by simpa using h), Params.build, List.foldlM_cons, e]
        exact h1
      · simp only [List.map_cons, InPlace.caughtAll, InPlace.caught, inPlace_eq, e, h2, h, decide_true]
    · obtain ⟨p, h1, h2⟩ := ih q
      refine ⟨p, ?_, ?_⟩
      · rw [List.filter_cons_of_neg (by simpa using h)]
        exact h1
      · simp only [List.map_cons, InPlace.caughtAll, InPlace.caught, inPlace_eq, run_panics q c h, h2, h, decide_false]

/-- The same of the tree variants. -/
theorem C51_tree_caught (plat : Platform) (calls : List PSetter) :
    ∃ p, (PParams.new a plat).build (calls.filter fun c => decide (c.InRange a)) = .ok p ∧
      InPlace.caughtAll (calls.map PSetter.inPlace) (PParams.new a plat) = (calls.map fun c => decide (c.InRange a), p) := by
  generalize PParams.new a plat = q
  induction calls generalizing q with
  | nil => exact ⟨q, rfl, rfl⟩
  | cons c cs ih =>
    by_cases h : c.InRange a
    · obtain ⟨q', e⟩ : ∃ q', c.run q = .ok q' := (C16_tree_panics_iff q c).2 h
      obtain ⟨p, h1, h2⟩ := ih q'
      refine ⟨p, ?_, ?_⟩
      · rw [List.filter_cons_of_pos (by simpa using h), PParams.build, List.foldlM_cons, e]
        exact h1
      · simp only [List.map_cons, InPlace.caughtAll, InPlace.caught, pinPlace_eq, e, h2, h, decide_true]
    · obtain ⟨p, h1, h2⟩ := ih q
      refine ⟨p, ?_, ?_⟩
      · rw [List.filter_cons_of_neg (by simpa using h)]
        exact h1
      · simp only [List.map_cons, InPlace.caughtAll, InPlace.caught, pinPlace_eq, prun_panics q c h, h2, h, decide_false]

/-- Two rejected calls among three accepted ones. -/
example : ∃ p, (Params.new .s .AVX2).build [.key [1, 2], .fanout 3, .salt [9]] = .ok p ∧
    InPlace.caughtAll ([.key [1, 2], .hashLength 33, .fanout 3, .key (List.replicate 33 7), .salt [9]].map Setter.inPlace)
      (Params.new .s .AVX2) = ([true, false, true, false, true], p) :=
  C51_caught .AVX2 [.key [1, 2], .hashLength 33, .fanout 3, .key (List.replicate 33 7), .salt [9]]

end Blake2
