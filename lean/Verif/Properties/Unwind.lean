import Verif.Properties.Output
import Verif.Proofs.Unwind
/-!
# What a panicking iterator leaves behind: C47
-/
namespace Blake2
open Spec

variable {a : Alg}

/-- The left-over of `ended`, when the call unwound. -/
theorem ended_unwound {E : Type} {n : Nat} {r : Many.Unwinding (Fin n) E (Fin n → E)} {mem : Fin n → E}
    (h : r = (.ok (.error mem) : Res _)) : Many.ended r = .ok (.unwound (List.ofFn mem)) := by
  subst h; rfl

theorem ended_returned {E : Type} {n : Nat} (r : Res (Fin n → E)) :
    Many.ended (liftM r : Many.Unwinding (Fin n) E _) = r.map fun mem => .returned (List.ofFn mem) := by
  cases r <;> rfl

theorem returned_bind {E : Type} {n : Nat} (r : Res (Fin n → E)) :
    r.map (fun mem => Ended.returned (List.ofFn mem)) = (r >>= fun mem => .ok (List.ofFn mem)).map Ended.returned := by
  cases r <;> rfl

/-- The functions with the flag unset are `update_many` and `hash_many`. -/
theorem C47_no_panic :
    (∀ pairs : List (State a × List Byte), updateManyP false pairs = (updateMany pairs).map .returned) ∧
    (∀ jobs : List (HashManyJob a), hashManyP false jobs = (hashMany jobs).map .returned) := by
  constructor
  · intro pairs
    cases pairs with
    | nil => rfl
    | cons first rest =>
      unfold updateManyP updateMany
      simp only [Many.compressManyP_false, ended_returned]
      exact returned_bind _
  · intro jobs
    cases jobs with
    | nil => rfl
    | cons first rest =>
      unfold hashManyP hashMany
      simp only [Many.compressManyP_false, ended_returned]
      exact returned_bind _

/-- What is left of a list of elements of which fewer than `d` were not finished. -/
theorem left_list {E : Type} {n d : Nat} {src : Source a (Fin n) E} {final mem : Fin n → E} (h : Many.Left src final d mem) :
    ∃ torn : List Nat, torn.length < d ∧ ∀ (i : Nat) (hi : i < n),
      (i ∉ torn → mem ⟨i, hi⟩ = final ⟨i, hi⟩) ∧ ∃ w, src.setWords (mem ⟨i, hi⟩) w = final ⟨i, hi⟩ ∨ mem ⟨i, hi⟩ = final ⟨i, hi⟩ := by
  obtain ⟨p, h1, h2, h3⟩ := h
  refine ⟨p.map (·.1), by simpa using h1, fun i hi => ⟨fun hn => h2 _ ?_, ?_⟩⟩
  · intro hm
    exact hn (List.mem_map.2 ⟨⟨i, hi⟩, hm, rfl⟩)
  · by_cases hm : (⟨i, hi⟩ : Fin n) ∈ p
    · obtain ⟨w, hw⟩ := h3 _ hm
      exact ⟨w, .inl hw⟩
    · exact ⟨Vector.replicate 8 0, .inr (h2 _ hm)⟩

/-- C47. When the iterator given to `update_many` panics after yielding `pairs`, and the caller catches the panic, fewer
than `degree` of the states yielded are torn: every other state yielded is exactly as `update` on it alone would have left
it. A torn state still has the `count` of the updated one, accepts further calls without a fault, and differs from the
updated state in its chaining value only. -/
theorem C47_update_many (first : State a × List Byte) (rest : List (State a × List Byte))
    (hp : ∀ q ∈ first :: rest, Reachable q.1) :
    ∃ (out : List (State a)) (torn : List Nat), updateManyP true (first :: rest) = .ok (.unwound out) ∧
      out.length = (first :: rest).length ∧ torn.length < implDegree a first.1.implementation ∧
      ∀ (i : Nat) (s : State a) (x : List Byte), (first :: rest)[i]? = some (s, x) →
        ∃ s' o, s.update x = .ok s' ∧ out[i]? = some o ∧ (i ∉ torn → o = s') ∧
          (∃ w, o = { s' with words := w }) ∧ (∀ dbg, o.getCount dbg = s'.getCount dbg) ∧
          (∃ h, o.finalize = .ok h) ∧ ∀ y, ∃ o', o.update y = .ok o' := by
  obtain ⟨pairs, hpairs⟩ : ∃ pairs, pairs = first :: rest := ⟨_, rfl⟩
  have hsane : ∀ q ∈ pairs, q.1.Sane := fun q hq => (hp q (hpairs ▸ hq)).sane
  let src : Source a (Fin pairs.length) (State a) := {
    pull := fun i s => updateManyPull i (pairs[i]).2 s
    getWords := fun s => s.words
    setWords := fun s w => { s with words := w } }
  obtain ⟨mem, e, hl⟩ := compressManyP_true (src := src) ⟨fun _ _ => rfl, fun _ _ _ => rfl⟩ first.1.implementation false
    .Serial (fun i : Fin pairs.length => (pairs[i]).1) (fun i => State.upd (pairs[i]).1 (pairs[i]).2)
    (List.finRange pairs.length) (List.nodup_finRange _)
    (fun i _ => updateManyPull_ok _ i _ _ (hsane _ (by simp)) rfl (fun _ => rfl) (fun _ _ => rfl))
    (fun i hi => absurd (List.mem_finRange i) hi)
  obtain ⟨torn, ht, hleft⟩ := left_list hl
  refine ⟨List.ofFn mem, torn, ?_, by rw [← hpairs]; simp, ht, ?_⟩
  · subst hpairs
    exact ended_unwound e
  · intro i s x hi
    rw [← hpairs] at hi
    obtain ⟨hlt, hix⟩ := List.getElem?_eq_some_iff.1 hi
    obtain ⟨h1, w, h2⟩ := hleft i hlt
    have hss : s.Sane := hsane (s, x) (List.mem_of_getElem? hi)
    have hfin : State.upd (pairs[(⟨i, hlt⟩ : Fin pairs.length)]).1 (pairs[(⟨i, hlt⟩ : Fin pairs.length)]).2 = State.upd s x := by
      simp [hix]
    rw [hfin] at h1 h2
    have hw : ∃ w, mem ⟨i, hlt⟩ = { State.upd s x with words := w } := by
      rcases h2 with h2 | h2
      · refine ⟨(mem ⟨i, hlt⟩).words, ?_⟩
        rw [← h2]
      · exact ⟨(State.upd s x).words, h2⟩
    have hus : (State.upd s x).Sane := State.upd_sane x hss
    have hos : (mem ⟨i, hlt⟩).Sane := by
      obtain ⟨w, hw⟩ := hw
      rw [hw]
      exact ⟨hus.1, hus.2, hus.3⟩
    refine ⟨State.upd s x, mem ⟨i, hlt⟩, State.update_eq s x hss, by simp [hlt], h1, hw, ?_,
      ⟨_, State.finalize_eq _ hos⟩, fun y => ⟨_, State.update_eq _ y hos⟩⟩
    intro dbg
    obtain ⟨w, hw⟩ := hw
    rw [hw]; rfl

/-- The states of the sample history, on whatever platforms it created them for. -/
example : ∃ (ss : List (State .b)) (os : List Obs), execAll true [] sampleHistory = .ok (ss, os) ∧ ∃ out,
    updateManyP true (ss.map fun s => (s, List.replicate 1000 (BitVec.ofNat 8 s.buflen))) = .ok (.unwound out) ∧
      out.length = ss.length := by
  obtain ⟨ss, os, e, _, hr⟩ := reachable_of_history (a := .b) true _ sampleHistory_valid
  refine ⟨ss, os, e, ?_⟩
  cases ss with
  | nil => exact ⟨[], rfl, rfl⟩
  | cons s ss =>
    obtain ⟨out, torn, h1, h2, _⟩ := C47_update_many (s, List.replicate 1000 (BitVec.ofNat 8 s.buflen))
      (ss.map fun s => (s, List.replicate 1000 (BitVec.ofNat 8 s.buflen))) (by
      intro q hq
      rw [← List.map_cons (f := fun s : State .b => (s, List.replicate 1000 (BitVec.ofNat 8 s.buflen)))] at hq
      obtain ⟨s', hs, rfl⟩ := List.mem_map.1 hq
      exact hr s' hs)
    exact ⟨out, h1, by simp only [h2, List.length_cons, List.length_map]⟩

/-- C47. The same of `hash_many`: fewer than `degree` of the jobs yielded are torn, every other one is as `hash_many` on it
alone would have left it. A torn job counts as finished: `to_hash` answers, in debug builds too. -/
theorem C47_hash_many (first : HashManyJob a) (rest : List (HashManyJob a)) (hj : ∀ j ∈ first :: rest, JobReachable j) :
    ∃ (out : List (HashManyJob a)) (torn : List Nat), hashManyP true (first :: rest) = .ok (.unwound out) ∧
      out.length = (first :: rest).length ∧ torn.length < implDegree a first.implementation ∧
      ∀ (i : Nat) (j : HashManyJob a), (first :: rest)[i]? = some j →
        ∃ j' o, hashMany [j] = .ok [j'] ∧ out[i]? = some o ∧ (i ∉ torn → o = j') ∧
          (∃ w, o = { j' with words := w }) ∧ ∀ dbg, ∃ h, o.toHash dbg = .ok h := by
  obtain ⟨jobs, hjobs⟩ : ∃ jobs, jobs = first :: rest := ⟨_, rfl⟩
  have hcount : ∀ j ∈ jobs, j.count.toNat % a.bb = 0 := fun j h => (hj j (hjobs ▸ h)).count_ok
  let src : Source a (Fin jobs.length) (HashManyJob a) := {
    pull := hashManyPull
    getWords := fun j => j.words
    setWords := fun j w => { j with words := w } }
  obtain ⟨mem, e, hl⟩ := compressManyP_true (src := src) ⟨fun _ _ => rfl, fun _ _ _ => rfl⟩ first.implementation true
    .Serial (fun i : Fin jobs.length => jobs[i]) (fun i => HashManyJob.done jobs[i])
    (List.finRange jobs.length) (List.nodup_finRange _)
    (fun i _ => hashManyPull_ok _ i _ (hcount _ (by simp)) rfl (fun _ => rfl) (fun _ _ => rfl))
    (fun i hi => absurd (List.mem_finRange i) hi)
  obtain ⟨torn, ht, hleft⟩ := left_list hl
  refine ⟨List.ofFn mem, torn, ?_, by rw [← hjobs]; simp, ht, ?_⟩
  · subst hjobs
    exact ended_unwound e
  · intro i j hi
    rw [← hjobs] at hi
    obtain ⟨hlt, hij⟩ := List.getElem?_eq_some_iff.1 hi
    obtain ⟨h1, w, h2⟩ := hleft i hlt
    have hfin : HashManyJob.done jobs[(⟨i, hlt⟩ : Fin jobs.length)] = j.done := by simp [hij]
    rw [hfin] at h1 h2
    have hw : ∃ w, mem ⟨i, hlt⟩ = { j.done with words := w } := by
      rcases h2 with h2 | h2
      · refine ⟨(mem ⟨i, hlt⟩).words, ?_⟩
        rw [← h2]
      · exact ⟨j.done.words, h2⟩
    refine ⟨j.done, mem ⟨i, hlt⟩, ?_, by simp [hlt], h1, hw, fun dbg => ?_⟩
    · rw [hashMany_eq [j] (by
        intro k hk
        simp only [List.mem_cons, List.not_mem_nil, or_false] at hk
        subst hk; exact hcount k (List.mem_of_getElem? hi))]
      rfl
    · obtain ⟨w, hw⟩ := hw
      rw [hw]
      unfold HashManyJob.toHash
      rw [show ({ j.done with words := w } : HashManyJob a).finished = true from done_finished j]
      exact ⟨_, by simp; rfl⟩

example : ∃ (j₁ j₂ : HashManyJob .s) (out : List (HashManyJob .s)) (torn : List Nat), HashManyJob.new (Params.new .s .SSE41) [1, 2, 3] = .ok j₁ ∧
    HashManyJob.new (Params.new .s .AVX2) (List.replicate 500 3) = .ok j₂ ∧
    hashManyP true [j₁, j₂] = .ok (.unwound out) ∧ out.length = 2 ∧ torn.length < implDegree .s j₁.implementation := by
  have hb : ∀ plat, Built (Params.new .s plat) := fun plat => ⟨plat, [], rfl⟩
  have hn : ∀ plat x, ∃ j, HashManyJob.new (Params.new .s plat) x = .ok j := fun plat x => by
    obtain ⟨c, hr⟩ := (hb plat).rep
    obtain ⟨j, e, _⟩ := hashManyJob_new hr x
    exact ⟨j, e⟩
  obtain ⟨j₁, e₁⟩ := hn .SSE41 [1, 2, 3]
  obtain ⟨j₂, e₂⟩ := hn .AVX2 (List.replicate 500 3)
  obtain ⟨out, torn, h1, h2, h3, _⟩ := C47_hash_many j₁ [j₂] (by
    intro j hj
    simp only [List.mem_cons, List.not_mem_nil, or_false] at hj
    rcases hj with rfl | rfl
    · exact .new _ _ _ (hb _) e₁
    · exact .new _ _ _ (hb _) e₂)
  exact ⟨j₁, j₂, out, torn, e₁, e₂, h1, h2, h3⟩

/-- The bytes of the digest of a state. -/
def State.digest (s : State a) : Res (List Byte) := do (← s.finalize).asBytes

/-- Evaluates `C47_torn_state`. -/
def tornState (s : State a) (x : List Byte) : Bool :=
  match updateManyP true [(s, x)] with
  | .ok (.unwound [o]) =>
    match s.update x with
    | .ok s' =>
      match o.digest, s.digest, s'.digest with
      | .ok d₁, .ok d₂, .ok d₃ => decide (d₁ ≠ d₂ ∧ d₁ ≠ d₃)
      | _, _, _ => false
    | _ => false
  | _ => false

theorem tornState_true {s : State a} {x : List Byte} (h : tornState s x = true) :
    ∃ o s' d₁ d₂ d₃, updateManyP true [(s, x)] = .ok (.unwound [o]) ∧ s.update x = .ok s' ∧
      o.digest = .ok d₁ ∧ s.digest = .ok d₂ ∧ s'.digest = .ok d₃ ∧ d₁ ≠ d₂ ∧ d₁ ≠ d₃ := by
  unfold tornState at h
  split at h
  · rename_i o e1
    split at h
    · rename_i s' e2
      split at h
      · rename_i d1 d2 d3 e3 e4 e5
        exact ⟨o, s', d1, d2, d3, e1, e2, e3, e4, e5, of_decide_eq_true h⟩
      · cases h
    · cases h
  · cases h

set_option maxRecDepth 100000 in
/-- C47. Torn states exist: a fresh state fed 256 bytes through an iterator that panics at its second item is afterwards
neither as before the call nor as updated: its digest is neither of theirs. -/
theorem C47_torn_state : ∃ o s' d₁ d₂ d₃,
    updateManyP true [((Params.new .b .AVX2).toState, List.replicate 256 7)] = .ok (.unwound [o]) ∧
    (Params.new .b .AVX2).toState.update (List.replicate 256 7) = .ok s' ∧
    o.digest = .ok d₁ ∧ (Params.new .b .AVX2).toState.digest = .ok d₂ ∧ s'.digest = .ok d₃ ∧ d₁ ≠ d₂ ∧ d₁ ≠ d₃ :=
  tornState_true (by decide +kernel)

/-- Evaluates `C47_torn_job`. -/
def tornJob (p : Params a) (x : List Byte) : Bool :=
  match HashManyJob.new p x with
  | .ok j =>
    match hashManyP true [j] with
    | .ok (.unwound [o]) =>
      match hashMany [o] with
      | .ok [o'] =>
        match o'.toHash true, p.hash x with
        | .ok h, .ok h' => decide (h.bytes ≠ h'.bytes)
        | _, _ => false
      | _ => false
    | _ => false
  | _ => false

theorem tornJob_true {p : Params a} {x : List Byte} (h : tornJob p x = true) :
    ∃ j o o' d d', HashManyJob.new p x = .ok j ∧ hashManyP true [j] = .ok (.unwound [o]) ∧ hashMany [o] = .ok [o'] ∧
      o'.toHash true = .ok d ∧ p.hash x = .ok d' ∧ d.bytes ≠ d'.bytes := by
  unfold tornJob at h
  split at h
  · rename_i j e1
    split at h
    · rename_i o e2
      split at h
      · rename_i o' e3
        split at h
        · rename_i d d' e4 e5
          exact ⟨j, o, o', d, d', e1, e2, e3, e4, e5, of_decide_eq_true h⟩
        · cases h
      · cases h
    · cases h
  · cases h

set_option maxRecDepth 100000 in
/-- C47. Torn jobs exist, and neither the debug assertion of `to_hash` nor another `hash_many` notices: a job taken from
an iterator that panics at its second item answers `to_hash` with something other than the hash, even after `hash_many`
has been called again on it. -/
theorem C47_torn_job : ∃ j o o' d d', HashManyJob.new (Params.new .b .AVX2) [1, 2, 3] = .ok j ∧
    hashManyP true [j] = .ok (.unwound [o]) ∧ hashMany [o] = .ok [o'] ∧
    o'.toHash true = .ok d ∧ (Params.new .b .AVX2).hash [1, 2, 3] = .ok d' ∧ d.bytes ≠ d'.bytes :=
  tornJob_true (by decide +kernel)

end Blake2
