import Verif.Model.FuzzMany
import Verif.Properties.Tests
/-!
# The randomised tests as they stand, whatever the random generator gives: C54
-/
namespace Blake2
open Spec

variable {a : Alg} {σ : Type}

theorem genRange_ok (next : σ → Nat × σ) {lo hi : Nat} (h : lo < hi) (s : σ) :
    ∃ n s', genRange next lo hi s = .ok (n, s') ∧ lo ≤ n ∧ n < hi := by
  refine ⟨_, _, if_pos h, Nat.le_add_right _ _, ?_⟩
  have := Nat.mod_lt (next s).1 (show 0 < hi - lo by omega)
  omega

theorem randomParams_ok (plat : Platform) (next : σ → Nat × σ) (s : σ) :
    ∃ p s', randomParams a plat next s = .ok (p, s') ∧ Built p := by
  have e2 : a.keybytes = maxOut a := by cases a <;> rfl
  have e3 : a.outbytes = maxOut a := by cases a <;> rfl
  obtain ⟨n, s1, h1, hn1, hn2⟩ := genRange_ok next (show 1 < a.outbytes + 1 by rw [e3]; cases a <;> decide) s
  unfold randomParams
  rw [h1]
  cases hk : (genBool next s1).1 with
  | false =>
    obtain ⟨p, e⟩ := C03_nonvacuous (a := a) plat [.hashLength n, .lastNode (genBool next (genBool next s1).2).1] (by
      intro x hx
      simp only [List.mem_cons, List.not_mem_nil, or_false] at hx
      rcases hx with rfl | rfl
      · show 1 ≤ n ∧ n ≤ maxOut a; omega
      · trivial)
    refine ⟨p, (genBool next (genBool next s1).2).2, ?_, plat, _, e⟩
    have e' : ((Params.new a plat).setHashLength n >>= fun q => q.setLastNode (genBool next (genBool next s1).2).1) = .ok p := by
      rw [← e]
      show _ = ((Params.new a plat).setHashLength n >>= fun q => q.setLastNode _ >>= fun q => .ok q)
      rfl
    cases h2 : (Params.new a plat).setHashLength n with
    | error _ => rw [h2] at e'; nomatch e'
    | ok q =>
      rw [h2] at e'
      simp only [ok_bind, h2, hk, Bool.false_eq_true, if_false]
      rw [ok_bind] at e'
      rw [e']
      rfl
  | true =>
    obtain ⟨l, s2, h3, hl1, hl2⟩ := genRange_ok next (show 1 < a.keybytes + 1 by rw [e2]; cases a <;> decide) (genBool next s1).2
    have hs : sliceTo (List.replicate a.keybytes 1) l = .ok (List.replicate l 1) := by
      unfold sliceTo
      rw [if_pos (by rw [List.length_replicate]; omega), List.take_replicate, Nat.min_eq_left (by omega)]
    obtain ⟨p, e⟩ := C03_nonvacuous (a := a) plat [.hashLength n, .key (List.replicate l 1), .lastNode (genBool next s2).1] (by
      intro x hx
      simp only [List.mem_cons, List.not_mem_nil, or_false] at hx
      rcases hx with rfl | rfl | rfl
      · show 1 ≤ n ∧ n ≤ maxOut a; omega
      · show (List.replicate l _).length ≤ maxOut a; rw [List.length_replicate]; omega
      · trivial)
    refine ⟨p, (genBool next s2).2, ?_, plat, _, e⟩
    have e' : ((Params.new a plat).setHashLength n >>= fun q => q.setKey (List.replicate l 1) >>= fun q =>
        q.setLastNode (genBool next s2).1) = .ok p := by
      rw [← e]
      rfl
    cases h2 : (Params.new a plat).setHashLength n with
    | error _ => rw [h2] at e'; nomatch e'
    | ok q =>
      rw [h2, ok_bind] at e'
      cases h4 : q.setKey (List.replicate l 1) with
      | error _ => rw [h4] at e'; nomatch e'
      | ok q' =>
        rw [h4, ok_bind] at e'
        simp only [ok_bind, h2, hk, if_true, h3, hs, h4, e']

theorem arrayPush_ok {α : Type} {cap : Nat} {v : List α} (h : v.length < cap) (x : α) : arrayPush cap v x = .ok (v ++ [x]) := if_pos h

theorem pickParams_ok (plat : Platform) (next : σ → Nat × σ) (maxN : Nat) (k : Nat) :
    ∀ (params : List (Params a)) (s : σ), params.length + k ≤ maxN → (∀ p ∈ params, Built p) →
      ∃ ps s', pickParams a plat next maxN k params s = .ok (ps, s') ∧ ps.length = params.length + k ∧ ∀ p ∈ ps, Built p := by
  induction k with
  | zero => intro params s _ hb; exact ⟨params, s, rfl, rfl, hb⟩
  | succ k ih =>
    intro params s hl hb
    obtain ⟨p, s1, e, h⟩ := randomParams_ok (a := a) plat next s
    obtain ⟨ps, s2, e2, hl2, hb2⟩ := ih (params ++ [p]) s1 (by rw [List.length_append, List.length_singleton]; omega) (by
      intro q hq
      rcases List.mem_append.1 hq with hq | hq
      · exact hb q hq
      · rw [List.mem_singleton.1 hq]; exact h)
    refine ⟨ps, s2, ?_, by rw [hl2, List.length_append, List.length_singleton]; omega, hb2⟩
    rw [pickParams, e, ok_bind]
    show (arrayPush maxN params p >>= _) = _
    rw [arrayPush_ok (by omega), ok_bind]
    exact e2

theorem pickInputs_ok (next : σ → Nat × σ) (bufs : List (List Byte)) (maxLen maxN : Nat) (hb : ∀ b ∈ bufs, b.length = maxLen)
    (hn : bufs.length = maxN) (k : Nat) :
    ∀ (inputs : List (List Byte)) (s : σ), inputs.length + k ≤ maxN → (∀ x ∈ inputs, x.length ≤ maxLen) →
      ∃ xs s', pickInputs next bufs maxLen maxN k inputs s = .ok (xs, s') ∧ xs.length = inputs.length + k ∧ ∀ x ∈ xs, x.length ≤ maxLen := by
  induction k with
  | zero => intro inputs s _ h; exact ⟨inputs, s, rfl, rfl, h⟩
  | succ k ih =>
    intro inputs s hl hx
    obtain ⟨n, s1, e, _, h⟩ := genRange_ok next (Nat.succ_pos maxLen) s
    have hi : inputs.length < bufs.length := by omega
    have e1 : getState bufs inputs.length = .ok bufs[inputs.length] := by
      unfold getState
      rw [List.getElem?_eq_getElem hi]
    have e2 : sliceTo bufs[inputs.length] n = .ok (bufs[inputs.length].take n) := by
      unfold sliceTo
      rw [if_pos (by rw [hb _ (List.getElem_mem hi)]; omega)]
    obtain ⟨xs, s2, e3, hl3, h3⟩ := ih (inputs ++ [bufs[inputs.length].take n]) s1
      (by rw [List.length_append, List.length_singleton]; omega) (by
        intro x hxm
        rcases List.mem_append.1 hxm with hq | hq
        · exact hx x hq
        · rw [List.mem_singleton.1 hq, List.length_take]; omega)
    refine ⟨xs, s2, ?_, by rw [hl3, List.length_append, List.length_singleton]; omega, h3⟩
    rw [pickInputs, show genRange next 0 (maxLen + 1) s = .ok (n, s1) from e, ok_bind]
    show (getState bufs inputs.length >>= _) = _
    rw [e1, ok_bind, e2, ok_bind, arrayPush_ok (by omega), ok_bind]
    exact e3

theorem fillBytes_length (next : σ → Nat × σ) (n : Nat) : ∀ s, (fillBytes next n s).1.length = n := by
  induction n with
  | zero => intro s; rfl
  | succ n ih => intro s; rw [fillBytes, List.length_cons, ih]

theorem fillBuffers_ok (next : σ → Nat × σ) (len k : Nat) :
    ∀ s, (fillBuffers next len k s).1.length = k ∧ ∀ b ∈ (fillBuffers next len k s).1, b.length = len := by
  induction k with
  | zero => intro s; exact ⟨rfl, fun b hb => by cases hb⟩
  | succ k ih =>
    intro s
    rw [fillBuffers]
    refine ⟨by rw [List.length_cons, (ih _).1], fun b hb => ?_⟩
    rcases List.mem_cons.1 hb with rfl | hb
    · exact fillBytes_length _ _ _
    · exact (ih _).2 b hb

/-- C54, what the randomised tests run on. Whatever numbers the generator gives, drawing the parameters and the inputs never panics, and
the test is its body run on the given number of draws, each of which is at most twice `MAX_DEGREE` parameters built by the API and as many
inputs of at most three blocks. -/
theorem C54_random_draws (a : Alg) (e : Machine) (next : σ → Nat × σ) (s : σ) (numTests : Nat) :
    ∃ draws : List (List (Params a) × List (List Byte)), draws.length = numTests ∧
      (∀ d ∈ draws, d.1.length = d.2.length ∧ d.1.length ≤ 2 * maxDegreeOn a e.x86 ∧ (∀ p ∈ d.1, Built p) ∧
        ∀ x ∈ d.2, x.length ≤ 3 * bb a) ∧
      ∀ f : List (Params a) → List (List Byte) → Res Unit,
        withRandomInputs a e next s numTests f = draws.forM fun d => f d.1 d.2 := by
  have hbb : a.bb = bb a := by cases a <;> rfl
  unfold withRandomInputs
  obtain ⟨hn, hb⟩ := fillBuffers_ok next (3 * a.bb) (2 * maxDegreeOn a e.x86) s
  show ∃ draws : List (List (Params a) × List (List Byte)), draws.length = numTests ∧ _ ∧
    ∀ f, randomTests a (detect e) next f (fillBuffers next (3 * a.bb) (2 * maxDegreeOn a e.x86) s).1 (3 * a.bb) (2 * maxDegreeOn a e.x86)
      numTests (fillBuffers next (3 * a.bb) (2 * maxDegreeOn a e.x86) s).2 = _
  generalize (fillBuffers next (3 * a.bb) (2 * maxDegreeOn a e.x86) s).1 = bufs at *
  generalize (fillBuffers next (3 * a.bb) (2 * maxDegreeOn a e.x86) s).2 = s
  induction numTests generalizing s with
  | zero => exact ⟨[], rfl, by simp, fun f => rfl⟩
  | succ k ih =>
    obtain ⟨n, s1, e1, _, h1⟩ := genRange_ok next (Nat.succ_pos (2 * maxDegreeOn a e.x86)) s
    obtain ⟨xs, s2, e2, l2, h2⟩ := pickInputs_ok next bufs (3 * a.bb) (2 * maxDegreeOn a e.x86) hb hn n [] s1 (by simp; omega) (by simp)
    obtain ⟨ps, s3, e3, l3, h3⟩ := pickParams_ok (a := a) (detect e) next (2 * maxDegreeOn a e.x86) n [] s2 (by simp; omega) (by simp)
    obtain ⟨draws, hd, hv, hf⟩ := ih s3
    simp only [List.length_nil, Nat.zero_add] at l2 l3
    refine ⟨(ps, xs) :: draws, by rw [List.length_cons, hd], ?_, fun f => ?_⟩
    · intro d hd
      rcases List.mem_cons.1 hd with rfl | hd
      · exact ⟨by rw [l2, l3], by show ps.length ≤ _; omega, h3, fun x hx => by rw [← hbb]; exact h2 x hx⟩
      · exact hv d hd
    · rw [randomTests, show genRange next 0 (2 * maxDegreeOn a e.x86 + 1) s = .ok (n, s1) from e1, ok_bind]
      show (pickInputs next bufs (3 * a.bb) (2 * maxDegreeOn a e.x86) n [] s1 >>= _) = _
      rw [e2, ok_bind]
      show (pickParams a (detect e) next (2 * maxDegreeOn a e.x86) n [] s2 >>= _) = _
      rw [e3, ok_bind]
      show (f ps xs >>= fun _ => randomTests a (detect e) next f bufs (3 * a.bb) (2 * maxDegreeOn a e.x86) k s3) = _
      rw [hf f]
      rfl

/-- C54, the randomised tests as they stand: with any generator in place of the seeded one, on every machine, in debug and in release
builds, they pass. Each of them runs its body on a thousand draws in debug builds and on a hundred thousand in release builds. -/
theorem C54_random_tests (a : Alg) (e : Machine) (dbg : Bool) (next : σ → Nat × σ) (s : σ) :
    fuzzHashManyTest a e dbg next s = .ok () ∧ fuzzUpdateManyTest a e dbg next s = .ok () ∧
    ∃ draws : List (List (Params a) × List (List Byte)), draws.length = (if dbg then 1000 else 100000) ∧
      (∀ d ∈ draws, d.1.length = d.2.length ∧ d.1.length ≤ 2 * maxDegreeOn a e.x86 ∧ (∀ p ∈ d.1, Built p) ∧
        ∀ x ∈ d.2, x.length ≤ 3 * bb a) ∧
      fuzzHashManyTest a e dbg next s = draws.forM (fun d => fuzzHashMany dbg d.1 d.2) ∧
      fuzzUpdateManyTest a e dbg next s = draws.forM (fun d => fuzzUpdateMany dbg d.1 d.2) := by
  obtain ⟨draws, hl, hv, hf⟩ := C54_random_draws a e next s (NUM_TESTS dbg)
  refine ⟨?_, ?_, draws, hl, hv, hf _, hf _⟩
  · unfold fuzzHashManyTest
    rw [hf]
    exact forM_ok _ _ fun d hd => C54_fuzz_hash_many dbg d.1 d.2 (hv d hd).1 (hv d hd).2.2.1
  · unfold fuzzUpdateManyTest
    rw [hf]
    refine forM_ok _ _ fun d hd => C54_fuzz_update_many dbg d.1 d.2 (hv d hd).1 (hv d hd).2.2.1 fun x hx => ?_
    have := (hv d hd).2.2.2 x hx
    have : 7 * bb a < 2 ^ (2 * a.w) := by cases a <;> decide
    omega

/-- The tests do reach long inputs and full batches: with a generator that always gives 384, the body is run on six inputs of three
whole blocks, so a body that cannot take those panics. -/
example : (match withRandomInputs .b { x86 := true, std := true, cpuSse41 := true, cpuAvx2 := true, buildSse41 := false, buildAvx2 := false }
    (fun s : Nat => (s, s)) 384 1 (fun _ inputs => assertThat (inputs.length != 6 || inputs.any fun x => decide (x.length < 3 * 128))) with
      | .error .panic => true
      | _ => false) = true := by decide +kernel

end Blake2
