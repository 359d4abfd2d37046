import Verif.Properties.Batch
import Verif.Proofs.Iter
/-!
# Batches from iterators that come back to life (C59)

Rust lets an iterator return `Some` after `None`. `update_many` and `hash_many` ask theirs from several places, and one of
them would pick up such a late element, or leave one half done, if it were asked again. The theorems say what the client
relies on: whatever the iterator is (`next` is any function on any type of states), the elements handed out before the
first `None` are processed, each as if alone, no other element of memory changes, and the iterator is left exactly where
its first `None` put it.
-/
namespace Blake2

variable {a : Alg} {ι σ : Type} [DecidableEq ι]

/-- **C59**, `update_many`. -/
theorem C59_update_many (next : σ → Option (ι × List Byte) × σ) (s s' : σ) (pairs : List (ι × List Byte))
    (hy : Yields next s pairs s') (distinct : (pairs.map (·.1)).Nodup) (mem : ι → State a)
    (hm : ∀ q ∈ pairs, Reachable (mem q.1)) (fuel : Nat) (hf : pairs.length < fuel) :
    ∃ mem', updateManyI fuel next s mem = .ok (mem', s') ∧
      (∀ i x, (i, x) ∈ pairs → (mem i).update x = .ok (mem' i)) ∧ ∀ i, (∀ x, (i, x) ∉ pairs) → mem' i = mem i := by
  obtain ⟨mem', h1, h2, h3⟩ := updateManyI_eq next hy distinct mem (fun q hq => (hm q hq).sane) fuel hf
  refine ⟨mem', h1, fun i x hx => ?_, fun i hi => h3 i fun hm => ?_⟩
  · rw [State.update_eq _ x (hm _ hx).sane, h2 _ hx]
  · obtain ⟨q, hq, rfl⟩ := List.mem_map.1 hm
    exact hi q.2 hq

/-- **C59**, `hash_many`. -/
theorem C59_hash_many (next : σ → Option ι × σ) (s s' : σ) (places : List ι)
    (hy : Yields next s places s') (distinct : places.Nodup) (mem : ι → HashManyJob a)
    (hm : ∀ i ∈ places, JobReachable (mem i)) (fuel : Nat) (hf : places.length < fuel) :
    ∃ mem', hashManyI fuel next s mem = .ok (mem', s') ∧ hashMany (places.map mem) = .ok (places.map mem') ∧
      (∀ i ∈ places, ∀ p msg, Built p → HashManyJob.new p msg = .ok (mem i) →
        ∃ h, p.hash msg = .ok h ∧ ∀ dbg, (mem' i).toHash dbg = .ok h) ∧
      ∀ i, i ∉ places → mem' i = mem i := by
  refine ⟨_, hashManyI_eq next hy distinct mem (fun i hi => (hm i hi).count_ok) fuel hf, ?_, ?_, ?_⟩
  · rw [hashMany_eq _ (by
      intro j hj
      obtain ⟨i, hi, rfl⟩ := List.mem_map.1 hj
      exact (hm i hi).count_ok), List.map_map]
    congr 1
    refine List.map_congr_left fun i hi => ?_
    simp only [Function.comp, if_pos hi]
  · intro i hi p msg hb hn
    simp only [if_pos hi]
    exact toHash_done hb hn
  · intro i hi
    simp only [if_neg hi]

/-- An iterator that plays back a list of answers: `None`s may come between the elements. -/
def playback {κ : Type} : List (Option κ) → Option κ × List (Option κ)
  | [] => (none, [])
  | r :: rs => (r, rs)

/-- Three elements, `None`, then two more. -/
theorem playback_yields : Yields playback [some 0, some 1, some 2, none, some 3, none, some 4] [0, 1, 2] [some 3, none, some 4] :=
  .item rfl (.item rfl (.item rfl (.stop rfl)))

/-- Jobs 0 to 2 are run; jobs 3 and 4, which the iterator would have handed out after its `None`, are not. -/
example (dbg : Bool) : ∃ (j : Nat → HashManyJob .b) (mem' : Nat → HashManyJob .b),
    (∀ i, HashManyJob.new (Params.new .b .AVX2) (List.replicate (100 * i) 1) = .ok (j i)) ∧
    hashManyI 10 playback [some 0, some 1, some 2, none, some 3, none, some 4] j = .ok (mem', [some 3, none, some 4]) ∧
    (∀ i, i < 3 → ∃ h, (Params.new .b .AVX2).hash (List.replicate (100 * i) 1) = .ok h ∧ (mem' i).toHash dbg = .ok h) ∧
    mem' 3 = j 3 ∧ mem' 4 = j 4 := by
  have hb : Built (Params.new .b .AVX2) := ⟨.AVX2, [], rfl⟩
  have hnew : ∀ i, ∃ j, HashManyJob.new (Params.new .b .AVX2) (List.replicate (100 * i) 1) = .ok j := by
    intro i
    obtain ⟨c, hr⟩ := hb.rep
    obtain ⟨j, e, _⟩ := hashManyJob_new hr (List.replicate (100 * i) (1 : Byte))
    exact ⟨j, e⟩
  obtain ⟨j, hj⟩ : ∃ j : Nat → HashManyJob .b,
      ∀ i, HashManyJob.new (Params.new .b .AVX2) (List.replicate (100 * i) 1) = .ok (j i) :=
    ⟨fun i => Classical.choose (hnew i), fun i => Classical.choose_spec (hnew i)⟩
  obtain ⟨mem', h1, _, h3, h4⟩ := C59_hash_many playback _ _ _ playback_yields (by decide) j
    (fun i _ => .new _ _ _ hb (hj i)) 10 (by decide)
  refine ⟨j, mem', hj, h1, fun i hi => ?_, h4 3 (by decide), h4 4 (by decide)⟩
  obtain ⟨h, e1, e2⟩ := h3 i (by
    simp only [List.mem_cons, List.not_mem_nil, or_false]; omega) _ _ hb (hj i)
  exact ⟨h, e1, e2 dbg⟩

/-- Two states are updated; the third, handed out late, is not. -/
example : ∃ (mem mem' : Nat → State .s), (∀ i, mem i = (Params.new .s .SSE41).toState) ∧
    updateManyI 5 playback [some (0, List.replicate 200 1), some (1, [7]), none, some (2, [8])] mem =
      .ok (mem', [some (2, [8])]) ∧
    (mem 0).update (List.replicate 200 1) = .ok (mem' 0) ∧ (mem 1).update [7] = .ok (mem' 1) ∧ mem' 2 = mem 2 := by
  have hr : Reachable (Params.new .s .SSE41).toState := reachable_new _
  obtain ⟨mem', h1, h2, h3⟩ := C59_update_many (a := .s) playback
    [some (0, List.replicate 200 1), some (1, [7]), none, some (2, [8])] [some (2, [8])]
    [(0, List.replicate 200 1), (1, [7])] (.item rfl (.item rfl (.stop rfl))) (by decide)
    (fun _ => (Params.new .s .SSE41).toState) (fun _ _ => hr) 5 (by decide)
  exact ⟨_, mem', fun _ => rfl, h1, h2 0 _ (by simp), h2 1 _ (by simp), h3 2 (by simp)⟩

end Blake2
