import Verif.EarlySpec
import Verif.Properties.World
import Verif.Properties.Unwind
/-!
# C70: what `to_hash` returns when it is called too early
-/
namespace Blake2
open Spec

variable {a : Alg}

/-! ## Lemmas -/

theorem wordsOf_wordsToBytes (h : Vector (Word a) 8) : wordsOf a (wordsToBytes a h) = h := by
  have hw : a.wb * 8 = a.w := by cases a <;> rfl
  have key : ∀ (l : List (Word a)) (i : Nat) (hi : i < l.length),
      ((l.flatMap fun x => leBytes a.wb x.toNat).drop (i * a.wb)).take a.wb = leBytes a.wb (l[i]).toNat := by
    intro l
    induction l with
    | nil => exact fun i hi => absurd hi (by simp)
    | cons x l ih =>
      intro i hi
      rw [List.flatMap_cons]
      cases i with
      | zero => rw [Nat.zero_mul, List.drop_zero, List.take_left' (leBytes_length _ _)]; rfl
      | succ i =>
        rw [Nat.add_mul, Nat.one_mul, Nat.add_comm, ← List.drop_drop, List.drop_left' (leBytes_length _ _)]
        exact ih i (by simpa using hi)
  unfold wordsOf wordsToBytes
  apply Vector.ext
  intro i hi
  rw [Vector.getElem_ofFn, key _ _ (by simpa using hi), leNat_leBytes]
  have e : (256 : Nat) ^ a.wb = 2 ^ a.w := by cases a <;> decide
  apply BitVec.eq_of_toNat_eq
  rw [e, BitVec.toNat_ofNat, Nat.mod_mod]
  exact Nat.mod_eq_of_lt (by simpa using (h[i]).isLt)

theorem dataBlock_shift {K y : List Byte} (hK : K.length = bb a) (i : Nat) :
    dataBlock a (K ++ y) (i + 1) = dataBlock a y i := by
  unfold dataBlock
  rw [Nat.add_mul, Nat.one_mul, Nat.add_comm, ← List.drop_drop, List.drop_left' hK]

theorem numBlocks_shift {n : Nat} (hn : 0 < n) : numBlocks a (bb a + n) = numBlocks a n + 1 := by
  unfold numBlocks
  cases a <;> simp only [bb] <;> omega

/-- Hashing a key block and more data is hashing the data from where the key block leads. -/
theorem process_keyed (h : Vector (Word a) 8) {K y : List Byte} (hK : K.length = bb a) (hy : y ≠ []) (ln : Bool) :
    process a h (K ++ y) ln = resume a (F a h K (bb a) false false) y ln := by
  have hy' : 0 < y.length := List.length_pos_iff.2 hy
  have hd : dataBlock a (K ++ y) 0 = K := by
    unfold dataBlock
    rw [Nat.zero_mul, List.drop_zero, List.take_left' hK, pad, hK]
    simp
  have hp : 0 < numBlocks a y.length := by unfold numBlocks; omega
  unfold process resume
  simp only [List.length_append, hK, numBlocks_shift hy']
  rw [Nat.add_sub_cancel]
  obtain ⟨n, hn⟩ : ∃ n, numBlocks a y.length = n + 1 := ⟨numBlocks a y.length - 1, by omega⟩
  rw [hn, Nat.add_sub_cancel, List.range_succ_eq_map, List.foldl_cons, List.foldl_map, hd, dataBlock_shift hK]
  simp only [dataBlock_shift hK, Nat.zero_add, Nat.one_mul, Nat.succ_eq_add_one, Nat.add_assoc, Nat.reduceAdd]

/-- On a machine with SIMD, a job whose iterator panics at the next item is marked as finished and not compressed. -/
theorem hashManyP_single (j : HashManyJob a) (hf : j.finished = false) (hi : j.implementation ≠ .Portable) :
    hashManyP true [j] = .ok (.unwound [{ j with finished := true }]) := by
  obtain ⟨w, c, l, n, x, f, imp⟩ := j
  simp only at hf
  subst hf
  cases imp with
  | Portable => exact absurd rfl hi
  | AVX2 => cases a <;> rfl
  | SSE41 => cases a <;> rfl

theorem hashManyJob_new_implementation {p : Params a} {x : List Byte} {j : HashManyJob a} (h : HashManyJob.new p x = .ok j) :
    j.implementation = p.implementation := by
  unfold HashManyJob.new at h
  simp only [bind, Except.bind] at h
  split at h
  · cases h
  · cases h; rfl

/-! ## C70 -/

/-- C70. A job that has still to be run — any job fresh from `HashManyJob::new` but a keyed one with empty input — panics when
asked for its hash in a build with debug assertions. In a build without, it answers with what `startWords` describes: a value
that depends on the parameters and not on the input. -/
theorem C70_early (plat : Platform) (calls : List Setter) (p : Params a) (hb : (Params.new a plat).build calls = .ok p) :
    ∃ h, h.asBytes = .ok (Digest.early a (configOf a calls)).bytes ∧
      h.asArray false = .ok (Digest.early a (configOf a calls)).array ∧
      ∀ x, ¬ ((configOf a calls).key ≠ [] ∧ x = []) →
        ∃ j, HashManyJob.new p x = .ok j ∧ j.toHash true = .error .panic ∧ j.toHash false = .ok h := by
  obtain ⟨r, _⟩ := built_rep hb
  generalize configOf a calls = c at r
  have key : ∀ x, ¬ (c.key ≠ [] ∧ x = []) → ∃ j, HashManyJob.new p x = .ok j ∧ j.toHash true = .error .panic ∧
      j.toHash false = .ok { bytes := wordsToBytes a (startWords a c), len := p.hashLength } := by
    intro x hx
    obtain ⟨j, hn, _, hl, hf, _⟩ := hashManyJob_new r x
    have hf' : j.finished = false := by
      rw [hf, Bool.and_eq_false_iff]
      simp only [decide_eq_false_iff_not]
      exact Decidable.not_and_iff_or_not.1 hx
    refine ⟨j, hn, ?_, ?_⟩
    · unfold HashManyJob.toHash; rw [hf']; rfl
    · unfold HashManyJob.toHash
      rw [hf', hashManyJob_new_words r x hn hf', hl, stateWordsToBytes_eq]
      rfl
  have hd : DigestRel a (Digest.early a c) { bytes := wordsToBytes a (startWords a c), len := p.hashLength } :=
    ⟨rfl, r.hashLength, wordsToBytes_length _, r.valid.1, by have := r.valid.2.1; rwa [maxOut_eq] at this⟩
  refine ⟨_, hd.asBytes, ?_, key⟩
  rw [hd.asArray, if_neg (by simp)]

/-- C70, why this matters. What a keyed job answers too early can be used in place of the key: whoever knows it computes the
keyed hash of every non-empty message without knowing the key (`resume` is given the early answer, the message and the
last-node flag, and nothing else). With a digest of full length `as_bytes` is enough. -/
theorem C70_stands_for_key (plat : Platform) (calls : List Setter) (p : Params a) (hb : (Params.new a plat).build calls = .ok p)
    (hk : (configOf a calls).key ≠ []) (x : List Byte) (hx : x ≠ []) :
    ∃ j early array, HashManyJob.new p x = .ok j ∧ j.toHash false = .ok early ∧ early.asArray false = .ok array ∧
      ((configOf a calls).digestLength = maxOut a → early.asBytes = .ok array) ∧
      ∀ y, y ≠ [] → ∃ h, p.hash y = .ok h ∧
        h.asBytes = .ok ((wordsToBytes a (resume a (wordsOf a array) y (configOf a calls).lastNode)).take
          (configOf a calls).digestLength) := by
  obtain ⟨h, h1, h2, h3⟩ := C70_early plat calls p hb
  obtain ⟨j, e1, _, e2⟩ := h3 x (fun h => hx h.2)
  refine ⟨j, h, _, e1, e2, h2, ?_, ?_⟩
  · intro hf
    rw [h1, Digest.bytes]
    congr 1
    apply List.take_of_length_le
    simp only [Digest.early, wordsToBytes_length, hf, maxOut_eq]
    exact Nat.le_refl _
  · intro y hy
    obtain ⟨r, _⟩ := built_rep hb
    refine ⟨_, hash_eq r y, ?_⟩
    rw [(DigestRel.of r.valid y r.hashLength).asBytes]
    have hl : (pad (bb a) (configOf a calls).key).length = bb a := by
      rw [bb_eq]; exact pad_length _ _ r.key_le
    simp only [Digest.bytes, Digest.of, Digest.early, hashFull, wordsOf_wordsToBytes, keyedData, if_neg hk, startWords]
    rw [process_keyed _ hl hy]

/-- C70 and C47. The same value comes out of builds with debug assertions, too, if the iterator given to `hash_many` panics after
it has yielded the job and the panic is caught: on a machine with SIMD the job then passes for finished. -/
theorem C70_torn (plat : Platform) (hs : plat ≠ .Portable) (calls : List Setter) (p : Params a)
    (hb : (Params.new a plat).build calls = .ok p) (x : List Byte) (hx : ¬ ((configOf a calls).key ≠ [] ∧ x = [])) :
    ∃ j j' h, HashManyJob.new p x = .ok j ∧ hashManyP true [j] = .ok (.unwound [j']) ∧ (∀ dbg, j'.toHash dbg = .ok h) ∧
      h.asBytes = .ok (Digest.early a (configOf a calls)).bytes ∧
      h.asArray false = .ok (Digest.early a (configOf a calls)).array := by
  obtain ⟨h, h1, h2, h3⟩ := C70_early plat calls p hb
  obtain ⟨j, e1, e2, e3⟩ := h3 x hx
  have hf : j.finished = false := by
    unfold HashManyJob.toHash at e2
    cases hf : j.finished with
    | false => rfl
    | true => rw [hf] at e2; cases e2
  have hi : j.implementation = plat := (hashManyJob_new_implementation e1).trans (built_rep hb).2
  refine ⟨j, _, h, e1, hashManyP_single j hf (by rw [hi]; exact hs), fun dbg => ?_, h1, h2⟩
  unfold HashManyJob.toHash at e3 ⊢
  simpa using e3

/-- A keyed job for which this is so. -/
example : ∃ p, (Params.new .b .AVX2).build [.key [1, 2, 3]] = .ok p ∧
    ∃ j early array, HashManyJob.new p [7] = .ok j ∧ j.toHash false = .ok early ∧ early.asBytes = .ok array ∧
      ∀ y, y ≠ [] → ∃ h, p.hash y = .ok h ∧ h.asBytes = .ok ((wordsToBytes .b (resume .b (wordsOf .b array) y false)).take 64) := by
  obtain ⟨p, e, _⟩ := rep_build (rep_new .b .AVX2) [.key [1, 2, 3]] (by decide)
  refine ⟨p, e, ?_⟩
  obtain ⟨j, early, array, h1, h2, _, h3, h4⟩ := C70_stands_for_key .AVX2 _ p e (by decide) [7] (by decide)
  exact ⟨j, early, array, h1, h2, h3 rfl, h4⟩

/-- The early answer of a job without a key is not the hash either. -/
example : (Digest.early .s (Config.default .s)).bytes ≠ Spec.hash .s (Config.default .s) [1, 2, 3] := by decide +kernel

end Blake2
