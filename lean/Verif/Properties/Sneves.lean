import Verif.Model.SnevesLib
import Verif.Proofs.SnevesBp
import Verif.Proofs.SnevesSp
import Verif.Properties.Hashing
import Verif.Properties.Tree
import Verif.Properties.Feature
import Verif.Properties.Benches
import Verif.Properties.Kat
/-!
# The C library the benchmarks compare with computes the same functions: C68
-/
namespace Blake2
open Spec

theorem Sneves.blake2b_ok (e : Machine) (he : e.cpuAvx2 = true) (input : List Byte) (h : input.length < 2 ^ 64) :
    Sneves.blake2b e input = .ok (Spec.hash .b (Config.default .b) input) := by
  simp only [Sneves.blake2b, Sneves.checkAvx2, Sneves.callC, he, Bool.or_true, if_true]
  exact SnevesB.blake2b_eq _ _ input (List.length_replicate ..) h

theorem Sneves.blake2bp_ok (e : Machine) (he : e.cpuAvx2 = true) (input : List Byte) (h : input.length < 2 ^ 63) :
    Sneves.blake2bp e input = .ok (Spec.hashP .b 64 [] input) := by
  simp only [Sneves.blake2bp, Sneves.checkAvx2, Sneves.callC, he, Bool.or_true, if_true]
  exact SnevesBp.blake2bp_eq _ _ input (List.length_replicate ..) h

theorem Sneves.blake2sp_ok (e : Machine) (he : e.cpuAvx2 = true) (input : List Byte) (h : input.length < 2 ^ 64) :
    Sneves.blake2sp e input = .ok (Spec.hashP .s 32 [] input) := by
  simp only [Sneves.blake2sp, Sneves.checkAvx2, Sneves.callC, he, Bool.or_true, if_true]
  exact SnevesSp.blake2sp_eq _ _ input (List.length_replicate ..) h

/-- C68, the digests. On a processor with AVX2 the functions `blake2b`, `blake2bp` and `blake2sp` of the crate around the C library return
BLAKE2b, BLAKE2bp and BLAKE2sp of the input, for every input a slice can hold: the C code reads and writes nothing out of bounds, and its loops
end. -/
theorem C68_digests (e : Machine) (he : e.cpuAvx2 = true) (input : List Byte) (h : input.length < 2 ^ 63) :
    Sneves.blake2b e input = .ok (Spec.hash .b (Config.default .b) input) ∧
    Sneves.blake2bp e input = .ok (Spec.hashP .b 64 [] input) ∧
    Sneves.blake2sp e input = .ok (Spec.hashP .s 32 [] input) :=
  ⟨Sneves.blake2b_ok e he input (by omega), Sneves.blake2bp_ok e he input h, Sneves.blake2sp_ok e he input (by omega)⟩

/-- C68, the same function. What the benchmarks compare computes the same digest: the functions of the C library, and those of this library on
any platform. -/
theorem C68_same (e : Machine) (he : e.cpuAvx2 = true) (plat : Platform) (input : List Byte) (h : input.length < 2 ^ 63) :
    Sneves.blake2b e input = (blake2 .b plat input >>= Hash.asBytes) ∧
    Sneves.blake2bp e input = (blake2p .b plat input >>= Hash.asBytes) ∧
    Sneves.blake2sp e input = (blake2p .s plat input >>= Hash.asBytes) := by
  obtain ⟨h1, h2, h3⟩ := C68_digests e he input h
  obtain ⟨x, e1, e2, _⟩ := C01_blake2b plat input
  obtain ⟨y, e3, e4⟩ := C13_blake2bp plat input
  obtain ⟨z, e5, e6⟩ := C13_blake2sp plat input
  rw [h1, h2, h3, e1, e3, e5]
  exact ⟨e2.symm, e4.symm, e6.symm⟩

/-- C68, without AVX2. On a processor without AVX2, on which a build that assumes AVX2 does not run, they panic, and the C code is not reached. -/
theorem C68_no_avx2 (e : Machine) (hp : e.Proper) (he : e.cpuAvx2 = false) (input : List Byte) :
    Sneves.blake2b e input = .error .panic ∧ Sneves.blake2bp e input = .error .panic ∧ Sneves.blake2sp e input = .error .panic := by
  have hb : e.buildAvx2 = false := by
    cases hb : e.buildAvx2
    · rfl
    · rw [hp.buildAvx2 hb] at he; cases he
  simp only [Sneves.blake2b, Sneves.blake2bp, Sneves.blake2sp, Sneves.checkAvx2, he, hb, Bool.or_false]
  exact ⟨rfl, rfl, rfl⟩

/-- Machines of both kinds, and an input. -/
example : (∃ e : Machine, e.Proper ∧ e.cpuAvx2 = true) ∧ (∃ e : Machine, e.Proper ∧ e.cpuAvx2 = false) ∧
    (List.replicate 1000 (7 : Byte)).length < 2 ^ 63 :=
  ⟨⟨⟨true, false, false, true, true, true⟩, ⟨by decide, by decide, by decide⟩, rfl⟩,
   ⟨⟨true, false, false, true, true, false⟩, ⟨by decide, by decide, by decide⟩, rfl⟩, by rw [List.length_replicate]; decide⟩

/-- BLAKE2b of "abc", the example of RFC 7693, from the C library. -/
example (e : Machine) (he : e.cpuAvx2 = true) :
    Sneves.blake2b e [97, 98, 99] = .ok (Spec.hash .b (Config.default .b) [97, 98, 99]) :=
  (C68_digests e he _ (by decide)).1

/-- C68, the three ways of loading a message. The C library compiles with `PERMUTE_WITH_SHUFFLES`, as build.rs has it, with
`PERMUTE_WITH_GATHER` or with neither. Each way its functions, given an array of the length of the digest, write to it BLAKE2b, BLAKE2bp and
BLAKE2sp of the input: the gathers stay within the block, and each way has the words of each round in the order of RFC 7693. -/
theorem C68_loads (p : Sneves.Permute) (out64 out32 input : List Byte) (h64 : out64.length = 64) (h32 : out32.length = 32)
    (h : input.length < 2 ^ 63) :
    SnevesB.blake2b p out64 input input.length = .ok (Spec.hash .b (Config.default .b) input) ∧
    SnevesBp.blake2bp p out64 input input.length = .ok (Spec.hashP .b 64 [] input) ∧
    SnevesSp.blake2sp p out32 input input.length = .ok (Spec.hashP .s 32 [] input) :=
  ⟨SnevesB.blake2b_eq p out64 input h64 (by omega), SnevesBp.blake2bp_eq p out64 input h64 h,
    SnevesSp.blake2sp_eq p out32 input h32 (by omega)⟩

/-- Three different builds, which agree on an input of more than one stripe. -/
example : [Sneves.Permute.shuffles, .gather, .none].Nodup ∧
    SnevesSp.blake2sp .gather (List.replicate 32 0) (List.replicate 1000 7) 1000 =
      SnevesSp.blake2sp .none (List.replicate 32 0) (List.replicate 1000 7) 1000 := by
  have h := fun p => (C68_loads p (List.replicate 64 0) (List.replicate 32 0) (List.replicate 1000 (7 : Byte)) (List.length_replicate ..)
    (List.length_replicate ..) (by rw [List.length_replicate]; decide)).2.2
  rw [List.length_replicate] at h
  exact ⟨by decide, by rw [h, h]⟩

/-- C68, the benchmarks. Those of the C library in bench.rs run any number of times, and each run computes the published function of `len` bytes,
which is what is counted for a run: so a rate of theirs and one of C64 are rates of the same work. -/
theorem C68_bench (e : Machine) (he : e.cpuAvx2 = true) (p : Nat) (hp : 0 < p) (m : Bench.Alloc) (shuffle : List Nat → List Nat)
    (hs : List.Perm (shuffle (List.range p)) (List.range p)) (len n : Nat) (hlen : len < 2 ^ 63)
    (hash : List Byte → Res (List Byte)) (spec : List Byte → List Byte)
    (hf : hash = Sneves.blake2b e ∧ spec = Spec.hash .b (Config.default .b) ∨ hash = Sneves.blake2bp e ∧ spec = Spec.hashP .b 64 [] ∨
      hash = Sneves.blake2sp e ∧ spec = Spec.hashP .s 32 []) :
    ∃ rs, Bench.benchOne hash p m shuffle len n = .ok (rs, len) ∧ rs.length = n ∧
      ∀ r ∈ rs, Bench.Within m (len + p) len r.1 ∧ r.2 = spec r.1.bytes := by
  refine benchOne_ok p hp m shuffle hs len n hash (fun x h => h = spec x) fun x hx => ?_
  obtain ⟨h1, h2, h3⟩ := C68_digests e he x (by omega)
  rcases hf with ⟨rfl, rfl⟩ | ⟨rfl, rfl⟩ | ⟨rfl, rfl⟩
  · exact ⟨_, h1, rfl⟩
  · exact ⟨_, h2, rfl⟩
  · exact ⟨_, h3, rfl⟩

/-- A benchmark of a megabyte, on pages of 4096 bytes. -/
example (m : Bench.Alloc) : ∃ rs, Bench.benchOne (Sneves.blake2sp ⟨true, false, false, true, true, true⟩) 4096 m List.reverse 1048576 10 = .ok (rs, 1048576) ∧
    rs.length = 10 ∧ ∀ r ∈ rs, Bench.Within m (1048576 + 4096) 1048576 r.1 ∧ r.2 = Spec.hashP .s 32 [] r.1.bytes :=
  C68_bench _ rfl 4096 (by decide) m List.reverse (List.reverse_perm _) _ _ (by decide) _ _ (.inr (.inr ⟨rfl, rfl⟩))

/-! ## The test in the crate -/

/-- The function a vector is about, if the crate has it. -/
def Sneves.Has (s : Suite) : Prop := s = .serial .b ∨ s = .tree .b ∨ s = .tree .s

/-- A vector is right: input and output are hexadecimal text, and if there is no key and the crate has the function, the output is its output. -/
def Sneves.Right (c : TestCase) : Prop :=
  ∃ input out, unhex c.input = some input ∧ unhex c.out = some out ∧
    (c.key = [] → ∀ s, Sneves.Has s → c.hash = s.name → s.output 0 [] input = some out)

/-- A vector that is compared. -/
def Sneves.counts (c : TestCase) : Bool := c.key.isEmpty && (c.hash == "blake2b" || c.hash == "blake2bp" || c.hash == "blake2sp")

theorem Sneves.vectorCase_verdict (e : Machine) (he : e.cpuAvx2 = true) (num : Nat) (c : TestCase) (hl : c.input.length < 2 ^ 64) :
    (Right c → vectorCase e num c = .ok (num + if counts c then 1 else 0)) ∧ (¬ Right c → vectorCase e num c = .error .panic) := by
  unfold vectorCase unhexUnwrap
  cases hi : unhex c.input with
  | none => exact ⟨fun ⟨_, _, h, _⟩ => (by rw [hi] at h; cases h), fun _ => rfl⟩
  | some input =>
    cases ho : unhex c.out with
    | none => exact ⟨fun ⟨_, _, _, h, _⟩ => (by rw [ho] at h; cases h), fun _ => rfl⟩
    | some out =>
      have hlen := unhex_length hi
      have right : Right c ↔ (c.key = [] → ∀ s, Has s → c.hash = s.name → s.output 0 [] input = some out) :=
        ⟨fun ⟨_, _, h1, h2, h3⟩ => by rw [hi] at h1; rw [ho] at h2; cases h1; cases h2; exact h3, fun h => ⟨_, _, hi, ho, h⟩⟩
      simp only [ok_bind]
      by_cases hk : c.key = []
      · have one : ∀ (s : Suite) (x : List Byte), Has s → c.hash = s.name → s.output 0 [] input = some x → counts c = true →
            (Right c → (do assertThat (out == x); (.ok (num + 1) : Res Nat)) = .ok (num + if counts c then 1 else 0)) ∧
            (¬ Right c → (do assertThat (out == x); (.ok (num + 1) : Res Nat)) = .error .panic) := by
          intro s x hs hn hx hc
          rw [hc]
          have : Right c ↔ out = x := by
            rw [right]
            refine ⟨fun h => ?_, fun h _ s' _ hn' => ?_⟩
            · have := h hk s hs hn
              rw [hx] at this
              cases this
              rfl
            · rw [Kat.name_inj s' s (hn'.symm.trans hn), hx, h]
          rw [this]
          by_cases h : out = x
          · subst h
            rw [beq_self_eq_true]
            exact ⟨fun _ => rfl, fun h => absurd rfl h⟩
          · rw [beq_eq_false_iff_ne.2 h]
            exact ⟨fun h' => absurd h' h, fun _ => rfl⟩
        have hke : c.key.isEmpty = true := by rw [hk]; rfl
        simp only [hke, Bool.not_true]
        rw [if_neg Bool.false_ne_true]
        by_cases h1 : c.hash = "blake2b"
        · rw [if_pos h1, blake2b_ok e he _ (by omega)]
          exact one (.serial .b) _ (.inl rfl) h1 rfl (by simp [counts, hke, h1])
        · by_cases h2 : c.hash = "blake2bp"
          · rw [if_neg h1, if_pos h2, blake2bp_ok e he _ (by omega)]
            exact one (.tree .b) _ (.inr (.inl rfl)) h2 rfl (by simp [counts, hke, h2])
          · by_cases h3 : c.hash = "blake2sp"
            · rw [if_neg h1, if_neg h2, if_pos h3, blake2sp_ok e he _ (by omega)]
              exact one (.tree .s) _ (.inr (.inr rfl)) h3 rfl (by simp [counts, hke, h3])
            · rw [if_neg h1, if_neg h2, if_neg h3]
              refine ⟨fun _ => ?_, fun h => absurd (right.2 fun _ s hs hn => ?_) h⟩
              · have : counts c = false := by simp [counts, h1, h2, h3]
                rw [this]
                rfl
              · rcases hs with rfl | rfl | rfl
                · exact absurd hn h1
                · exact absurd hn h2
                · exact absurd hn h3
      · have hke : c.key.isEmpty = false := by simpa using hk
        simp only [hke, Bool.not_false, if_true]
        refine ⟨fun _ => ?_, fun h => absurd (right.2 fun h => absurd h hk) h⟩
        have : counts c = false := by simp [counts, hke]
        rw [this]
        rfl

/-- C68, the test of the crate. On a processor with AVX2 it passes exactly when all the vectors are right and 768 of them are compared; otherwise
it panics. -/
theorem C68_test_vectors (e : Machine) (he : e.cpuAvx2 = true) (cases : List TestCase) (h : ∀ c ∈ cases, c.input.length < 2 ^ 64) :
    Verdict (Sneves.testVectors e cases) ((∀ c ∈ cases, Sneves.Right c) ∧ (cases.filter Sneves.counts).length = 768) := by
  have key : ∀ n, ((∀ c ∈ cases, Sneves.Right c) →
        cases.foldlM (Sneves.vectorCase e) n = .ok (n + (cases.filter Sneves.counts).length)) ∧
      (¬ (∀ c ∈ cases, Sneves.Right c) → cases.foldlM (Sneves.vectorCase e) n = .error .panic) := by
    induction cases with
    | nil => exact fun n => ⟨fun _ => rfl, fun h => absurd (by simp) h⟩
    | cons c cs ih =>
      intro n
      have hv := Sneves.vectorCase_verdict e he n c (h c (by simp))
      have ih := ih fun c hc => h c (by simp [hc])
      rw [List.foldlM_cons]
      by_cases hr : Sneves.Right c
      · rw [hv.1 hr, ok_bind]
        refine ⟨fun h => ?_, fun h => (ih _).2 fun h' => h ?_⟩
        · rw [(ih _).1 fun x hx => h x (by simp [hx]), List.filter_cons]
          split
          · rw [List.length_cons]; congr 1; omega
          · congr 1
        · intro x hx
          rcases List.mem_cons.1 hx with rfl | hx
          · exact hr
          · exact h' x hx
      · rw [hv.2 hr]
        exact ⟨fun h => absurd (h c (by simp)) hr, fun _ => rfl⟩
  unfold Sneves.testVectors
  refine ⟨fun h => ?_, fun h => ?_⟩
  · rw [(key 0).1 h.1, ok_bind, h.2]
    rfl
  · by_cases hr : ∀ c ∈ cases, Sneves.Right c
    · rw [(key 0).1 hr, ok_bind, Nat.zero_add, beq_eq_false_iff_ne.2 fun e => h ⟨hr, e.symm⟩]
      rfl
    · rw [(key 0).2 hr]
      rfl

theorem Kat.group_counts (x : Suite) (k : Nat) (outs : List String) :
    (group x k outs).filter Sneves.counts =
      if (hexOf (counting k)).isEmpty && (x.name == "blake2b" || x.name == "blake2bp" || x.name == "blake2sp") then group x k outs else [] := by
  have hc : ∀ c ∈ group x k outs, Sneves.counts c =
      ((hexOf (counting k)).isEmpty && (x.name == "blake2b" || x.name == "blake2bp" || x.name == "blake2sp")) := by
    intro c hc
    rw [group, List.mem_map] at hc
    obtain ⟨_, _, rfl⟩ := hc
    rfl
  split
  · next h => exact List.filter_eq_self.2 fun c h' => by rw [hc c h', h]
  · next h => exact List.filter_eq_nil_iff.2 fun c h' => by rw [hc c h']; exact h

/-- C68, the test of the crate with the file in the repository. It passes. -/
theorem C68_kat (e : Machine) (he : e.cpuAvx2 = true) : Sneves.testVectors e Kat.testCases = .ok () := by
  refine (C68_test_vectors e he Kat.testCases fun c hc => (Kat.testCases_short c hc).1).1 ⟨?_, ?_⟩
  · intro c hc
    obtain ⟨x, hx, key, input, out, h1, h2, h3, h4, h5⟩ := Kat.C57_kat_right.2 c hc
    refine ⟨input, out, h2, by rw [h5, unhex_hexOf], fun hk s hs hn => ?_⟩
    have hsx := Kat.name_inj s x (hn.symm.trans hx)
    subst hsx
    rw [hk] at h1
    cases h1
    rcases hs with rfl | rfl | rfl <;> exact h4
  · have e : ∀ (p : Prop) [Decidable p] (l : List TestCase), (if p then l else []).length = if p then l.length else 0 := by
      intro p _ l; split <;> rfl
    simp only [Kat.testCases, List.filter_append, Kat.group_counts, List.length_append, e, Kat.group_length, Kat.s_length, Kat.sKeyed_length,
      Kat.b_length, Kat.bKeyed_length, Kat.sp_length, Kat.spKeyed_length, Kat.bp_length, Kat.bpKeyed_length, Kat.xs_length, Kat.xsKeyed_length,
      Kat.xb_length, Kat.xbKeyed_length]
    decide

/-- A file for which the test of the crate does not pass: no vectors. -/
example (e : Machine) (he : e.cpuAvx2 = true) : Sneves.testVectors e [] = .error .panic :=
  (C68_test_vectors e he [] (by simp)).2 fun h => absurd h.2 (by decide)

end Blake2
