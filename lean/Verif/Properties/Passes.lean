import Verif.Properties.Trace
import Verif.Properties.TraceTree
/-!
# How many compressions and how many passes: C48 (numbers of compressions), C50 (numbers of passes)

`C48_hash` and `C48_hash_many` say which compressions are run. `C48_number` says how many that are. `C50_avx2` says that the lanes of
`hash_many` are kept busy. `C50_passes` turns this into a bound on the number of times the widest loop goes round.
-/
namespace Blake2
open Spec

variable {a : Alg}

/-! ## C48 -/

/-- How many compressions a message of `len` bytes takes: one for each block of the input, the padded key counting as a block of it, and
one for the empty input. -/
def compressionsFor (a : Alg) (keyed : Bool) (len : Nat) : Nat := max 1 (((if keyed then bb a else 0) + len + (bb a - 1)) / bb a)

theorem rfcCalls_number (calls : List Setter) (h : ∀ s ∈ calls, s.InRange a) (x : List Byte) :
    (rfcCalls a (keyedData a (configOf a calls).key x) (configOf a calls).lastNode).length =
      compressionsFor a (decide ((configOf a calls).key ≠ [])) x.length := by
  obtain ⟨p, _, hr, _⟩ := rep_build (rep_new a .Portable) calls h
  replace hr : Rep a (configOf a calls) p := hr
  rw [rfcCalls_length, keyedData_eq, List.length_append, keyPart_len hr.valid]
  have hb := bb_pos a
  rw [← bb_eq] at hb
  unfold numBlocks compressionsFor
  by_cases hk : (configOf a calls).key = []
  · simp only [hk, if_true, ne_eq, not_true, decide_false, Bool.false_eq_true, if_false]
    congr 2; omega
  · simp only [hk, if_false, ne_eq, not_false_eq_true, decide_true, if_true, ← bb_eq]
    congr 2; omega

/-- C48, numbers. `Params::hash` compresses once for each block of the message, once more for the key if there is one, and once for an
empty message without a key. -/
theorem C48_number (plat : Platform) (calls : List Setter) (h : ∀ s ∈ calls, s.InRange a) (x : List Byte) :
    ∃ p d log, (Params.new a plat).build calls = .ok p ∧ (p.hashT () x).run = .ok (d, log) ∧
      log.length = compressionsFor a (decide ((configOf a calls).key ≠ [])) x.length := by
  obtain ⟨p, hp, _, _⟩ := rep_build (rep_new a plat) calls h
  obtain ⟨d, log, e, hl⟩ := C48_hash plat calls p hp x
  refine ⟨p, d, log, hp, e, ?_⟩
  rw [hl, List.length_map, rfcCalls_number calls h]

/-- A keyed BLAKE2s hash of 300 bytes takes one compression for the key and five for the message. -/
example : ∃ p d log, (Params.new .s .SSE41).build [.key [1, 2, 3], .hashLength 20] = .ok p ∧
    (p.hashT () (List.replicate 300 7)).run = .ok (d, log) ∧ log.length = 6 := by
  obtain ⟨p, d, log, h1, h2, h3⟩ := C48_number (a := .s) .SSE41 [.key [1, 2, 3], .hashLength 20] (by decide) (List.replicate 300 7)
  refine ⟨p, d, log, h1, h2, h3.trans ?_⟩
  rw [List.length_replicate]
  decide

example : compressionsFor .b false 0 = 1 ∧ compressionsFor .b false 128 = 1 ∧ compressionsFor .b false 129 = 2 ∧
    compressionsFor .b true 0 = 1 ∧ compressionsFor .b true 1 = 2 ∧ compressionsFor .s false 129 = 3 := by decide

/-! ## C50 -/

section
variable {ι C : Type} [DecidableEq ι]

/-- The calls that lanes of one list make for `i`. -/
def laneCalls (i : ι) (L : List (ι × C)) : List C := L.filterMap fun p => if p.1 = i then some p.2 else none

theorem laneCalls_cons (i : ι) (p : ι × C) (L : List (ι × C)) :
    (laneCalls i (p :: L)).length = (if p.1 = i then 1 else 0) + (laneCalls i L).length := by
  unfold laneCalls
  by_cases h : p.1 = i
  · simp [List.filterMap_cons, h]; omega
  · simp [List.filterMap_cons, h]

theorem laneCalls_sum (p : ι × C) (L : List (ι × C)) (S : List ι) (h : p.1 ∈ S) :
    (S.map fun i => (laneCalls i L).length).sum + 1 ≤ (S.map fun i => (laneCalls i (p :: L)).length).sum := by
  have mono : ∀ S : List ι, (S.map fun i => (laneCalls i L).length).sum ≤ (S.map fun i => (laneCalls i (p :: L)).length).sum := by
    intro S
    induction S with
    | nil => exact Nat.le_refl _
    | cons j js ih =>
      have := laneCalls_cons j p L
      simp only [List.map_cons, List.sum_cons]
      omega
  induction S with
  | nil => cases h
  | cons j js ih =>
    have hj := laneCalls_cons j p L
    have hm := mono js
    simp only [List.map_cons, List.sum_cons]
    by_cases e : p.1 = j
    · rw [if_pos e] at hj; omega
    · have := ih ((List.mem_cons.1 h).resolve_left e)
      omega

/-- Lanes that all serve members of `S` are no more than the calls made for those. -/
theorem length_le_laneCalls (L : List (ι × C)) (S : List ι) (h : ∀ p ∈ L, p.1 ∈ S) :
    L.length ≤ (S.map fun i => (laneCalls i L).length).sum := by
  induction L with
  | nil => exact Nat.zero_le _
  | cons p L ih =>
    have h1 := ih fun q hq => h q (List.mem_cons_of_mem _ hq)
    have h2 := laneCalls_sum p L S (h p (by simp))
    rw [List.length_cons]; omega

theorem laneCalls_filter (i : ι) (f : List (ι × C) → Bool) (log : List (List (ι × C))) :
    (laneCalls i (log.filter f).flatten).length ≤ (laneCalls i log.flatten).length := by
  induction log with
  | nil => exact Nat.le_refl _
  | cons p l ih =>
    have happ : ∀ x y : List (ι × C), (laneCalls i (x ++ y)).length = (laneCalls i x).length + (laneCalls i y).length := by
      intro x y; simp [laneCalls]
    cases hp : f p <;> simp only [List.filter_cons, hp, if_true, Bool.false_eq_true, if_false, List.flatten_cons, happ] <;> omega

theorem sum_le_of_le (f g : ι → Nat) (l : List ι) (h : ∀ i ∈ l, f i ≤ g i) : (l.map f).sum ≤ (l.map g).sum := by
  induction l with
  | nil => exact Nat.le_refl _
  | cons j js ih =>
    have := h j (by simp)
    have := ih fun i hi => h i (List.mem_cons_of_mem _ hi)
    simp only [List.map_cons, List.sum_cons]; omega

omit [DecidableEq ι] in
theorem flatten_full (N : Nat) (log : List (List (ι × C))) (h : ∀ p ∈ log, p.length = N) : log.flatten.length = N * log.length := by
  induction log with
  | nil => rfl
  | cons p l ih =>
    rw [List.flatten_cons, List.length_append, h p (by simp), ih fun q hq => h q (List.mem_cons_of_mem _ hq), List.length_cons,
      Nat.mul_add]
    omega

omit [DecidableEq ι] in
theorem flatten_pos (log : List (List (ι × C))) (h : ∀ p ∈ log, 1 ≤ p.length) : log.length ≤ log.flatten.length := by
  induction log with
  | nil => exact Nat.le_refl _
  | cons p l ih =>
    have := h p (by simp)
    have := ih fun q hq => h q (List.mem_cons_of_mem _ hq)
    rw [List.flatten_cons, List.length_append, List.length_cons]; omega

omit [DecidableEq ι] in
theorem filter_lengths (f : List (ι × C) → Bool) (log : List (List (ι × C))) :
    log.length = (log.filter f).length + (log.filter fun p => !f p).length := by
  induction log with
  | nil => rfl
  | cons p l ih =>
    cases hp : f p <;> simp [List.filter_cons, hp] <;> omega

/-- If all passes but those for fewer than `N` members are full, there are not many more passes than full ones would do. -/
theorem passes_le (log : List (List (ι × C))) (N M : Nat) (ids S : List ι) (b : ι → Nat)
    (hpos : ∀ p ∈ log, 1 ≤ p.length) (hids : ∀ p ∈ log, ∀ i ∈ p.map Prod.fst, i ∈ ids) (hS : S.length < N)
    (hsat : ∀ p ∈ log, p.length ≠ N → ∀ i ∈ p.map Prod.fst, i ∈ S)
    (hb : ∀ i ∈ ids, (laneCalls i log.flatten).length ≤ b i) (hM : ∀ i ∈ S, (laneCalls i log.flatten).length ≤ M) :
    N * log.length ≤ (ids.map b).sum + N * ((N - 1) * M) := by
  have hsplit := filter_lengths (fun p => decide (p.length = N)) log
  have hfull := flatten_full N (log.filter fun p => decide (p.length = N)) (fun p hp => by simpa using (List.mem_filter.1 hp).2)
  have h1 : (log.filter fun p => decide (p.length = N)).flatten.length ≤ (ids.map b).sum := by
    refine Nat.le_trans (length_le_laneCalls _ ids fun q hq => ?_) (sum_le_of_le _ _ _ fun i hi =>
      Nat.le_trans (laneCalls_filter i _ log) (hb i hi))
    obtain ⟨p, hp, hq⟩ := List.mem_flatten.1 hq
    exact hids p (List.mem_filter.1 hp).1 _ (List.mem_map_of_mem hq)
  have h2 : (log.filter fun p => !decide (p.length = N)).length ≤ (N - 1) * M := by
    refine Nat.le_trans (flatten_pos _ fun p hp => hpos p (List.mem_filter.1 hp).1) ?_
    refine Nat.le_trans (length_le_laneCalls _ S fun q hq => ?_) ?_
    · obtain ⟨p, hp, hq⟩ := List.mem_flatten.1 hq
      have hf := List.mem_filter.1 hp
      exact hsat p hf.1 (by simpa using hf.2) _ (List.mem_map_of_mem hq)
    · refine Nat.le_trans (sum_le_of_le _ (fun _ => M) _ fun i hi => Nat.le_trans (laneCalls_filter i _ log) (hM i hi)) ?_
      rw [List.map_const', List.sum_replicate_nat]
      exact Nat.mul_le_mul_right M (by omega)
  have h3 := Nat.mul_le_mul_left N h2
  rw [hsplit, Nat.mul_add, ← hfull]
  omega

end

theorem widths_pos {n : Nat} (h : n ∈ [1, loDegree a, hiDegree a]) : 1 ≤ n := by
  cases a <;> simp [loDegree, hiDegree] at h <;> omega

theorem implDegree_pos (imp : Platform) : 1 ≤ implDegree a imp := by cases a <;> cases imp <;> decide

/-- Passes that do not use all lanes: there are none without SIMD, and with SSE4.1 they have one lane. -/
theorem narrow_cases {imp : Platform} {n : Nat} (h : n ∈ [1, loDegree a, hiDegree a]) (hle : n ≤ implDegree a imp)
    (hne : n ≠ implDegree a imp) : imp ≠ .Portable ∧ (imp = .SSE41 → n = 1) := by
  cases a <;> cases imp <;> simp [loDegree, hiDegree, implDegree] at h hle hne ⊢ <;> omega

theorem run_widths {n : Nat} (pull : Sched.Pull (Fin n) (Call a)) (imp : Platform) :
    ∀ p ∈ Sched.run pull (implDegree a imp) (hiDegree a) (loDegree a) (List.finRange n),
      p.length ∈ [1, loDegree a, hiDegree a] ∧ p.length ≤ implDegree a imp := by
  intro p hp
  have hs := Sched.run_shaped pull (degree := implDegree a imp) (hi := hiDegree a) (lo := loDegree a)
    (W := [1, loDegree a, hiDegree a].filter (· ≤ implDegree a imp)) (by cases a <;> cases imp <;> decide)
    (by cases a <;> cases imp <;> decide) (by cases a <;> cases imp <;> decide) _ (List.nodup_finRange _)
  have hw := (hs p hp).2
  rw [List.mem_filter] at hw
  exact ⟨hw.1, by simpa using hw.2⟩

theorem session_saturated (jobs : List (HashManyJob a)) (imp : Platform) (h : jobs ≠ [] → hashImp jobs = imp) :
    ∃ S : List (Fin jobs.length), S.length < implDegree a imp ∧
      ∀ p ∈ Sched.run (fun i : Fin jobs.length => hashPull jobs[i]) (implDegree a (hashImp jobs)) (hiDegree a) (loDegree a)
          (List.finRange _),
        p.length ≠ implDegree a imp → ∀ i ∈ p.map Prod.fst, i ∈ S := by
  cases jobs with
  | nil => exact ⟨[], implDegree_pos imp, fun p hp => by cases a <;> cases hp⟩
  | cons q qs =>
    rw [h (by simp)]
    have hw := run_widths (fun i : Fin (q :: qs).length => hashPull (q :: qs)[i]) imp
    cases imp with
    | AVX2 =>
      have e : implDegree a .AVX2 = hiDegree a := by cases a <;> rfl
      rw [e]
      exact Sched.run_saturated _ (fun _ => rfl) (by cases a <;> decide) (Nat.le_refl _) _
    | SSE41 =>
      have e : implDegree a .SSE41 = loDegree a := by cases a <;> rfl
      obtain ⟨S, h1, h2⟩ := Sched.run_saturated_lo (fun i : Fin (q :: qs).length => hashPull (q :: qs)[i]) (fun _ => rfl)
        (degree := implDegree a .SSE41) (hi := hiDegree a) (lo := loDegree a) (by cases a <;> decide) (Nat.le_of_eq e.symm)
        (by cases a <;> decide) (List.finRange _)
      exact ⟨S, e ▸ h1, fun p hp hne => h2 p hp ((narrow_cases (hw p hp).1 (hw p hp).2 hne).2 rfl)⟩
    | Portable =>
      exact ⟨[], implDegree_pos _, fun p hp hne => absurd rfl (narrow_cases (hw p hp).1 (hw p hp).2 hne).1⟩

theorem newCalls_length {c : Config} {p : Params a} (h : Rep a c p) (x : List Byte) :
    (newCalls p x).length = if c.key = [] then 0 else 1 := by
  unfold newCalls
  rw [h.key_toNat]
  by_cases hk : c.key = []
  · simp [hk]
  · have : 0 < c.key.length := List.length_pos_iff.2 hk
    rw [if_pos this, if_neg hk, absorbCalls, if_pos]
    · rfl
    · rw [h.keyBlock, pad_length _ _ h.key_le]
      exact bb_le_padded a .Serial

theorem created_length (items : List (Params a × List Byte)) (n : Nat) :
    ((items.zipIdx n).flatMap fun q => solo q.2 (newCalls q.1.1 q.1.2)).length =
      (items.map fun q => (newCalls q.1 q.2).length).sum := by
  induction items generalizing n with
  | nil => rfl
  | cons q qs ih =>
    rw [List.zipIdx_cons, List.flatMap_cons, List.length_append, ih, List.map_cons, List.sum_cons]
    simp [solo]

/-- How many compressions a request takes. -/
def requestCompressions (a : Alg) (q : Platform × List Setter × List Byte) : Nat :=
  compressionsFor a (decide ((configOf a q.2.1).key ≠ [])) q.2.2.length

/-- C50, numbers. Let `N = implDegree a imp` be the number of lanes of the widest loop for the implementation of the first job (with AVX2
4 for BLAKE2b and 8 for BLAKE2s, with SSE4.1 2 and 4, otherwise 1), and let no request take more than `M` compressions. Then a session of `hash_many`, from the creation of the jobs on, makes at most one `N`th
as many passes as there are compressions, plus one for each keyed request, plus `(N - 1) * M`: the last term does not depend on how many
requests there are. Running them one by one takes a pass for every compression. -/
theorem C50_passes (reqs : List (Platform × List Setter × List Byte)) (h : ∀ q ∈ reqs, ∀ x ∈ q.2.1, x.InRange a)
    (imp : Platform) (hf : ∀ q ∈ reqs.head?, q.1 = imp) (M : Nat) (hM : ∀ q ∈ reqs, requestCompressions a q ≤ M) :
    ∃ jobs log, (hashAllT (a := a) reqs).run = .ok (jobs, log) ∧
      implDegree a imp * log.length ≤ (reqs.map (requestCompressions a)).sum +
        implDegree a imp * ((reqs.filter fun q => decide ((configOf a q.2.1).key ≠ [])).length + (implDegree a imp - 1) * M) := by
  obtain ⟨items, hit, hl, hg, e⟩ := hashAllT_log (a := a) reqs h
  obtain ⟨jobs', log', e', hcalls, hno, hw⟩ := C48_hash_many (a := a) reqs h
  rw [e] at e'
  have hlog := (Prod.mk.inj (Except.ok.inj e')).2
  refine ⟨_, _, e, ?_⟩
  rw [List.length_append, created_length, Nat.mul_add]
  have hcr : (items.map fun q => (newCalls q.1 q.2).length).sum =
      (reqs.filter fun q => decide ((configOf a q.2.1).key ≠ [])).length := by
    clear hit e e' hlog hcalls hno hw hf hM
    induction reqs generalizing items with
    | nil => cases items with
      | nil => rfl
      | cons => simp at hl
    | cons r rs ih => cases items with
      | nil => simp at hl
      | cons q qs =>
        obtain ⟨p, hp, hr, _⟩ := hg 0 r rfl
        cases Option.some.inj hp
        have := ih (fun q hq => h q (List.mem_cons_of_mem _ hq)) qs (by simpa using hl) (fun i q hq => hg (i + 1) q hq)
        rw [List.map_cons, List.sum_cons, this, newCalls_length hr]
        by_cases hk : (configOf a r.2.1).key = []
        · simp [List.filter_cons, hk]
        · simp [List.filter_cons, hk]; omega
  rw [hcr]
  suffices hmain : implDegree a imp * (rename Fin.val (Sched.run (fun i : Fin (items.map fun q => newJob q.1 q.2).length =>
              hashPull (items.map fun q => newJob q.1 q.2)[i])
            (implDegree a (hashImp (items.map fun q => newJob q.1 q.2))) (hiDegree a) (loDegree a) (List.finRange _))).length ≤
      (reqs.map (requestCompressions a)).sum + implDegree a imp * ((implDegree a imp - 1) * M) by
    rw [Nat.mul_add]; omega
  have hsum : (reqs.map (requestCompressions a)) =
      (List.range reqs.length).map fun i => ((reqs[i]?).map (requestCompressions a)).getD 0 := by
    apply List.ext_getElem
    · simp
    · intro i h1 h2
      have : i < reqs.length := by simpa using h1
      simp [this]
  rw [hsum]
  have himp : items ≠ [] → hashImp (items.map fun q => newJob q.1 q.2) = imp := by
    intro hne
    cases items with
    | nil => exact absurd rfl hne
    | cons q qs =>
      cases reqs with
      | nil => simp at hl
      | cons r rs =>
        obtain ⟨p, hp, _, hi⟩ := hg 0 r rfl
        cases Option.some.inj hp
        show (newJob p r.2.2).implementation = _
        rw [newJob_implementation, hi]
        exact hf r rfl
  have hcount : ∀ (i : Nat) (q : Platform × List Setter × List Byte), reqs[i]? = some q →
      (callsOf i (rename Fin.val (Sched.run (fun i : Fin (items.map fun q => newJob q.1 q.2).length =>
              hashPull (items.map fun q => newJob q.1 q.2)[i])
            (implDegree a (hashImp (items.map fun q => newJob q.1 q.2))) (hiDegree a) (loDegree a) (List.finRange _)))).length ≤
        requestCompressions a q := by
    intro i q hq
    have hc := hcalls i q.1 q.2.1 q.2.2 hq
    rw [← hlog, callsOf_eq_mine, Sched.mine_append] at hc
    have := congrArg List.length hc
    rw [rfcCalls_number _ (h q (List.mem_of_getElem? hq)), List.length_append] at this
    unfold requestCompressions
    rw [callsOf_eq_mine]
    omega
  obtain ⟨S, hS, hsat⟩ := session_saturated (items.map fun q => newJob q.1 q.2) imp (fun hne => himp (fun e => hne (by rw [e]; rfl)))
  have hshape := Sched.run_shaped (fun i : Fin (items.map fun q => newJob q.1 q.2).length =>
          hashPull (items.map fun q => newJob q.1 q.2)[i])
        (degree := implDegree a (hashImp (items.map fun q => newJob q.1 q.2))) (hi := hiDegree a) (lo := loDegree a)
        (W := [1, loDegree a, hiDegree a]) (by simp) (by simp) (by simp) _ (List.nodup_finRange _)
  have hlen : ∀ i : Fin (items.map fun q => newJob q.1 q.2).length, i.val < reqs.length := fun i => by
    have := Nat.lt_of_lt_of_eq i.2 (List.length_map ..)
    omega
  have hbound : ∀ i, i < reqs.length → ∃ q, reqs[i]? = some q ∧ q ∈ reqs := fun i hi =>
    ⟨_, List.getElem?_eq_getElem hi, List.getElem_mem hi⟩
  refine passes_le _ (implDegree a imp) M _ (S.map Fin.val) _ ?_ ?_ (by rw [List.length_map]; exact hS) ?_ ?_ ?_
  · intro p hp
    obtain ⟨q, hq, rfl⟩ := List.mem_map.1 hp
    rw [List.length_map]
    exact widths_pos (hshape q hq).2
  · intro p hp i hi
    obtain ⟨q, hq, rfl⟩ := List.mem_map.1 hp
    rw [List.map_map] at hi
    obtain ⟨c, _, rfl⟩ := List.mem_map.1 hi
    exact List.mem_range.2 (hlen c.1)
  · intro p hp hne i hi
    obtain ⟨q, hq, rfl⟩ := List.mem_map.1 hp
    rw [List.length_map] at hne
    rw [List.map_map] at hi
    obtain ⟨c, hc, rfl⟩ := List.mem_map.1 hi
    exact List.mem_map_of_mem (hsat q hq hne _ (List.mem_map_of_mem hc))
  · intro i hi
    obtain ⟨q, hq, _⟩ := hbound i (List.mem_range.1 hi)
    rw [hq]
    exact hcount i q hq
  · intro i hi
    obtain ⟨j, _, rfl⟩ := List.mem_map.1 hi
    obtain ⟨q, hq, hm⟩ := hbound j.val (hlen j)
    exact Nat.le_trans (hcount j.val q hq) (hM q hm)

/-- A thousand requests of 100 blocks each: at most 25300 passes for 100000 compressions. -/
example : ∃ jobs log, (hashAllT (a := .b) (List.replicate 1000 (.AVX2, [], List.replicate 12800 7))).run = .ok (jobs, log) ∧
    log.length ≤ 25300 := by
  obtain ⟨jobs, log, e, hl⟩ := C50_passes (a := .b) (List.replicate 1000 (.AVX2, [], List.replicate 12800 7))
    (fun q hq => by rw [List.eq_of_mem_replicate hq]; simp) .AVX2
    (fun q hq => by rw [List.eq_of_mem_replicate (List.mem_of_mem_head? hq)]) 100
    (fun q hq => by rw [List.eq_of_mem_replicate hq]; simp only [requestCompressions, List.length_replicate]; decide)
  refine ⟨jobs, log, e, ?_⟩
  have hc : requestCompressions .b (.AVX2, [], List.replicate 12800 7) = 100 := by
    simp only [requestCompressions, List.length_replicate]; decide
  have hk : (configOf .b ([] : List Setter)).key = [] := rfl
  rw [List.map_replicate, hc, List.sum_replicate_nat, List.filter_replicate] at hl
  simp [hk, implDegree] at hl
  omega

/-! ### `update_many` -/

section
variable {ι C : Type} [DecidableEq ι]

/-- The number of passes in which `i` takes part. -/
def passesOf (i : ι) (L : List (List (ι × C))) : Nat := (L.filter fun p => decide (i ∈ p.map Prod.fst)).length

theorem passesOf_cons (i : ι) (p : List (ι × C)) (L : List (List (ι × C))) :
    passesOf i (p :: L) = (if i ∈ p.map Prod.fst then 1 else 0) + passesOf i L := by
  unfold passesOf
  by_cases h : i ∈ p.map Prod.fst
  · rw [List.filter_cons, if_pos (by simpa using h), if_pos h, List.length_cons]; omega
  · rw [List.filter_cons, if_neg (by simpa using h), if_neg h]; omega

theorem passesOf_le (i : ι) (L : List (List (ι × C))) : passesOf i L ≤ (laneCalls i L.flatten).length := by
  induction L with
  | nil => exact Nat.le_refl _
  | cons p L ih =>
    have happ : (laneCalls i (p ++ L.flatten)).length = (laneCalls i p).length + (laneCalls i L.flatten).length := by simp [laneCalls]
    rw [passesOf_cons, List.flatten_cons, happ]
    split
    · rename_i h
      obtain ⟨c, hc, rfl⟩ := List.mem_map.1 h
      have : 0 < (laneCalls c.1 p).length := by
        refine List.length_pos_of_mem (a := c.2) (List.mem_filterMap.2 ⟨c, hc, by simp⟩)
      omega
    · omega

theorem length_le_passesOf (L : List (List (ι × C))) (T : List ι) (h : ∀ p ∈ L, ∃ i ∈ T, i ∈ p.map Prod.fst) :
    L.length ≤ (T.map fun i => passesOf i L).sum := by
  induction L with
  | nil => exact Nat.zero_le _
  | cons p L ih =>
    have h1 := ih fun q hq => h q (List.mem_cons_of_mem _ hq)
    obtain ⟨i, hi, hp⟩ := h p (by simp)
    have h2 : (T.map fun i => passesOf i L).sum + 1 ≤ (T.map fun i => passesOf i (p :: L)).sum := by
      clear h h1 ih
      have mono : ∀ T : List ι, (T.map fun i => passesOf i L).sum ≤ (T.map fun i => passesOf i (p :: L)).sum := fun T =>
        sum_le_of_le _ _ _ fun j _ => by rw [passesOf_cons]; omega
      induction T with
      | nil => cases hi
      | cons j js ih =>
        have hm := mono js
        simp only [List.map_cons, List.sum_cons]
        have hj := passesOf_cons j p L
        by_cases e : i = j
        · subst e; rw [if_pos hp] at hj; omega
        · have := ih ((List.mem_cons.1 hi).resolve_left e)
          omega
    rw [List.length_cons]; omega

theorem passesOf_filter (i : ι) (f : List (ι × C) → Bool) (L : List (List (ι × C))) : passesOf i (L.filter f) ≤ passesOf i L :=
  (List.filter_sublist.filter _).length_le

/-- As `passes_le`, if those not among the few may take part in one narrow pass each. -/
theorem passes_le_visits (log : List (List (ι × C))) (N M : Nat) (ids S : List ι) (b : ι → Nat)
    (hpos : ∀ p ∈ log, 1 ≤ p.length) (hids : ∀ p ∈ log, ∀ i ∈ p.map Prod.fst, i ∈ ids) (hS : S.length < N)
    (hsat : ∀ i, i ∉ S → passesOf i (log.filter fun p => !decide (p.length = N)) ≤ 1)
    (hb : ∀ i ∈ ids, (laneCalls i log.flatten).length ≤ b i) (hM : ∀ i ∈ S, (laneCalls i log.flatten).length ≤ M) :
    N * log.length ≤ (ids.map b).sum + N * (ids.length + (N - 1) * M) := by
  have hsplit := filter_lengths (fun p => decide (p.length = N)) log
  have hfull := flatten_full N (log.filter fun p => decide (p.length = N)) (fun p hp => by simpa using (List.mem_filter.1 hp).2)
  have h1 : (log.filter fun p => decide (p.length = N)).flatten.length ≤ (ids.map b).sum := by
    refine Nat.le_trans (length_le_laneCalls _ ids fun q hq => ?_) (sum_le_of_le _ _ _ fun i hi =>
      Nat.le_trans (laneCalls_filter i _ log) (hb i hi))
    obtain ⟨p, hp, hq⟩ := List.mem_flatten.1 hq
    exact hids p (List.mem_filter.1 hp).1 _ (List.mem_map_of_mem hq)
  have h2 : (log.filter fun p => !decide (p.length = N)).length ≤ ids.length + (N - 1) * M := by
    have hs2 := filter_lengths (fun p : List (ι × C) => decide (∃ i ∈ S, i ∈ p.map Prod.fst)) (log.filter fun p => !decide (p.length = N))
    have ha : ((log.filter fun p => !decide (p.length = N)).filter
        (fun p : List (ι × C) => decide (∃ i ∈ S, i ∈ p.map Prod.fst))).length ≤ (N - 1) * M := by
      refine Nat.le_trans (length_le_passesOf _ S fun p hp => by simpa using (List.mem_filter.1 hp).2) ?_
      refine Nat.le_trans (sum_le_of_le _ (fun _ => M) _ fun i hi => Nat.le_trans (passesOf_filter i _ _)
        (Nat.le_trans (passesOf_filter i _ _) (Nat.le_trans (passesOf_le i log) (hM i hi)))) ?_
      rw [List.map_const', List.sum_replicate_nat]
      exact Nat.mul_le_mul_right M (by omega)
    have hc : ((log.filter fun p => !decide (p.length = N)).filter
        (fun p : List (ι × C) => !decide (∃ i ∈ S, i ∈ p.map Prod.fst))).length ≤ ids.length := by
      refine Nat.le_trans (length_le_passesOf _ ids fun p hp => ?_) ?_
      · have hm := (List.mem_filter.1 (List.mem_filter.1 hp).1).1
        have := hpos p hm
        cases p with
        | nil => simp at this
        | cons c cs => exact ⟨c.1, hids _ hm _ (by simp), by simp⟩
      · refine Nat.le_trans (sum_le_of_le _ (fun _ => 1) _ fun i _ => ?_) (by rw [List.map_const', List.sum_replicate_nat]; omega)
        by_cases hi : i ∈ S
        · refine Nat.le_trans (Nat.le_of_eq ?_) (Nat.zero_le 1)
          unfold passesOf
          rw [List.length_eq_zero_iff, List.filter_eq_nil_iff]
          intro p hp hmem
          have := (List.mem_filter.1 hp).2
          rw [Bool.not_eq_true', decide_eq_false_iff_not] at this
          exact this ⟨i, hi, by simpa using hmem⟩
        · exact Nat.le_trans (passesOf_filter i _ _) (hsat i hi)
    omega
  have h3 := Nat.mul_le_mul_left N h2
  rw [hsplit, Nat.mul_add, ← hfull]
  omega

end

theorem absorbCalls_le (fin ln : Bool) (c : Count a) (x : List Byte) (m : Nat) (hm : 0 < m) (h : x.length ≤ m * a.bb) :
    (absorbCalls a .Serial fin ln c x).length ≤ m := by
  induction m generalizing c x with
  | zero => omega
  | succ m ih =>
    rw [absorbCalls]
    split
    · simp
    · rename_i hx
      have hx : ¬ x.length ≤ a.bb := hx
      have hd : (x.drop (Stride.Serial.padded a)).length ≤ m * a.bb := by
        show (x.drop a.bb).length ≤ _
        rw [List.length_drop]
        rw [Nat.add_mul] at h
        omega
      have hm0 : 0 < m := by
        rcases Nat.eq_zero_or_pos m with rfl | h0
        · exact absurd (by simpa using h) hx
        · exact h0
      have := ih (c + BitVec.ofNat _ a.bb) _ hm0 hd
      rw [List.length_cons]
      omega

theorem updatePull_le (s : State a) (h : s.Sane) (x : List Byte) :
    (updatePull s x).1.length + ((updatePull s x).2.getD []).length ≤ x.length / bb a + 1 := by
  have h1 := updatePull_visit s h x
  suffices h2 : ((updatePull s x).2.getD []).length ≤ x.length / bb a by omega
  unfold updatePull
  dsimp only
  split
  · exact Nat.zero_le _
  · split
    · rename_i hb
      have hle : (State.cbp s x).2.length ≤ x.length := by
        unfold State.cbp
        split
        · dsimp only
          split
          · simp
          · simp
        · exact Nat.le_refl _
      have hbb : bb a = a.bb := bb_eq a
      have hp := bb_pos a
      generalize (State.cbp s x).2 = y at hb hle
      rw [Option.getD_some]
      have hbulk : State.bulk a y = (y.length - 1) / a.bb * a.bb := rfl
      rw [hbulk] at hb ⊢
      have hm : 0 < (y.length - 1) / a.bb := Nat.pos_of_ne_zero fun e => by rw [e] at hb; omega
      refine Nat.le_trans (absorbCalls_le _ _ _ _ ((y.length - 1) / a.bb) hm ?_) ?_
      · rw [List.length_take]; omega
      · rw [hbb]; exact Nat.div_le_div_right (by omega)
    · exact Nat.zero_le _

/-- How many compressions feeding `x` to a state takes at most, whatever the state holds. -/
def feedCompressions (a : Alg) (x : List Byte) : Nat := x.length / bb a + 1

/-- C50, numbers, `update_many`. The same for feeding any inputs to any states: at most one `N`th as many passes as compressions, plus
one for each state, plus a term that does not depend on how many states there are. -/
theorem C50_update_many_passes (pairs : List (State a × List Byte)) (h : ∀ q ∈ pairs, Reachable q.1)
    (imp : Platform) (hf : ∀ q ∈ pairs.head?, q.1.implementation = imp) (M : Nat) (hM : ∀ q ∈ pairs, feedCompressions a q.2 ≤ M) :
    ∃ out log, (updateManyT pairs).run = .ok (out, log) ∧ log.flatten.length ≤ (pairs.map fun q => feedCompressions a q.2).sum ∧
      implDegree a imp * log.length ≤
        (pairs.map fun q => feedCompressions a q.2).sum + implDegree a imp * (pairs.length + (implDegree a imp - 1) * M) := by
  have hs : ∀ q ∈ pairs, q.1.Sane := fun q hq => (h q hq).sane
  refine ⟨_, _, updateManyT_log pairs hs, ?_⟩
  have hsum : (pairs.map fun q => feedCompressions a q.2) =
      (List.finRange pairs.length).map fun i => feedCompressions a (pairs[i]).2 := by
    apply List.ext_getElem
    · simp
    · intro i h1 h2
      simp
  have hcount : ∀ i : Fin pairs.length, (laneCalls i (Sched.run (fun i : Fin pairs.length => updatePull (pairs[i]).1 (pairs[i]).2)
        (implDegree a (updateImp pairs)) (hiDegree a) (loDegree a) (List.finRange pairs.length)).flatten).length ≤
      feedCompressions a (pairs[i]).2 := by
    intro i
    show (Sched.mine i _).length ≤ _
    rw [Sched.run_mine _ _ _ _ _ (List.nodup_finRange _), if_pos (List.mem_finRange _), List.length_append]
    exact updatePull_le _ (hs _ (List.getElem_mem i.isLt)) _
  have himp : pairs ≠ [] → updateImp pairs = imp := by
    intro hne
    cases pairs with
    | nil => exact absurd rfl hne
    | cons q qs => exact hf q rfl
  have hsat : ∃ S : List (Fin pairs.length), S.length < implDegree a imp ∧
      ∀ i, i ∉ S → passesOf i ((Sched.run (fun i : Fin pairs.length => updatePull (pairs[i]).1 (pairs[i]).2)
        (implDegree a (updateImp pairs)) (hiDegree a) (loDegree a) (List.finRange pairs.length)).filter
          fun p => !decide (p.length = implDegree a imp)) ≤ 1 := by
    by_cases hne : pairs = []
    · subst hne; exact ⟨[], implDegree_pos imp, fun i => i.elim0⟩
    have hw := run_widths (fun i : Fin pairs.length => updatePull (pairs[i]).1 (pairs[i]).2) (updateImp pairs)
    rw [himp hne] at hw ⊢
    have hno : imp = .Portable → ((Sched.run (fun i : Fin pairs.length => updatePull (pairs[i]).1 (pairs[i]).2)
        (implDegree a imp) (hiDegree a) (loDegree a) (List.finRange pairs.length)).filter
          fun p => !decide (p.length = implDegree a imp)) = [] := by
      intro e
      rw [List.filter_eq_nil_iff]
      intro p hp hn
      exact (narrow_cases (hw p hp).1 (hw p hp).2 (by simpa using hn)).1 e
    cases imp with
    | Portable => exact ⟨[], implDegree_pos _, fun i _ => by rw [hno rfl]; exact Nat.zero_le 1⟩
    | AVX2 =>
      have e : implDegree a .AVX2 = hiDegree a := by cases a <;> rfl
      obtain ⟨S, h1, h2⟩ := Sched.run_saturated_visits (fun i : Fin pairs.length => updatePull (pairs[i]).1 (pairs[i]).2)
        (degree := implDegree a .AVX2) (hi := hiDegree a) (lo := loDegree a) (by cases a <;> decide) (Nat.le_of_eq e.symm)
        (List.finRange _) (List.nodup_finRange _)
      refine ⟨S, e ▸ h1, fun i hi => Nat.le_trans (Nat.le_of_eq ?_) (Nat.le_trans (h2 i hi)
        (updatePull_visit _ (hs _ (List.getElem_mem i.isLt)) _))⟩
      unfold passesOf Sched.badPasses
      rw [List.filter_filter, List.countP_eq_length_filter, e]
      congr 2
      funext p
      by_cases e1 : p.length = hiDegree a <;> by_cases e2 : i ∈ p.map Prod.fst <;> simp [e1, e2]
    | SSE41 =>
      have e : implDegree a .SSE41 = loDegree a := by cases a <;> rfl
      obtain ⟨S, h1, h2⟩ := Sched.run_saturated_lo_visits (fun i : Fin pairs.length => updatePull (pairs[i]).1 (pairs[i]).2)
        (degree := implDegree a .SSE41) (hi := hiDegree a) (lo := loDegree a) (by cases a <;> decide) (Nat.le_of_eq e.symm)
        (by cases a <;> decide) (List.finRange _) (List.nodup_finRange _)
      refine ⟨S, e ▸ h1, fun i hi => Nat.le_trans ?_ (Nat.le_trans (h2 i hi)
        (updatePull_visit _ (hs _ (List.getElem_mem i.isLt)) _))⟩
      unfold passesOf Sched.badPasses
      rw [List.filter_filter, ← List.countP_eq_length_filter]
      refine List.countP_mono_left fun p hp hpi => ?_
      rw [Bool.and_eq_true] at hpi ⊢
      refine ⟨?_, hpi.1⟩
      exact decide_eq_true ((narrow_cases (hw p hp).1 (hw p hp).2 (by simpa using hpi.2)).2 rfl)
  obtain ⟨S, hS, hsat⟩ := hsat
  rw [hsum]
  refine ⟨Nat.le_trans (length_le_laneCalls _ (List.finRange _) fun _ _ => List.mem_finRange _) (sum_le_of_le _ _ _ fun i _ => hcount i), ?_⟩
  have hshape := Sched.run_shaped (fun i : Fin pairs.length => updatePull (pairs[i]).1 (pairs[i]).2)
        (degree := implDegree a (updateImp pairs)) (hi := hiDegree a) (lo := loDegree a)
        (W := [1, loDegree a, hiDegree a]) (by simp) (by simp) (by simp) _ (List.nodup_finRange _)
  have := passes_le_visits _ (implDegree a imp) M (List.finRange pairs.length) S (fun i => feedCompressions a (pairs[i]).2)
    (fun p hp => widths_pos (hshape p hp).2) (fun p _ i _ => List.mem_finRange i) hS hsat (fun i _ => hcount i)
    (fun i _ => Nat.le_trans (hcount i) (hM _ (List.getElem_mem i.isLt)))
  rw [List.length_finRange] at this
  exact this

/-- Sixty hashers fed 1000 blocks each, on an AVX2 machine: 60060 compressions at most, in fewer than 19000 passes. -/
example : ∃ pairs : List (State .b × List Byte), pairs.length = 60 ∧ ∃ out log, (updateManyT pairs).run = .ok (out, log) ∧
    log.length ≤ 18078 := by
  have hr : Reachable (Params.new .b .AVX2).toState :=
    ⟨true, [.create .AVX2 []], _, _, by decide +kernel, rfl, List.mem_singleton.2 rfl⟩
  obtain ⟨x, hx⟩ : ∃ x : List Byte, x.length = 128000 := ⟨List.replicate 128000 7, List.length_replicate⟩
  have hc : feedCompressions .b x = 1001 := by unfold feedCompressions; rw [hx]; decide
  have hq : ∀ q ∈ List.replicate 60 ((Params.new .b .AVX2).toState, x),
      q = ((Params.new .b .AVX2).toState, x) := fun q hq => List.eq_of_mem_replicate hq
  obtain ⟨out, log, e, _, hl⟩ := C50_update_many_passes (a := .b)
    (List.replicate 60 ((Params.new .b .AVX2).toState, x))
    (fun q h => by rw [hq q h]; exact hr) .AVX2 (fun q h => by rw [hq q (List.mem_of_mem_head? h)]; rfl) 1001
    (fun q h => by rw [hq q h, hc]; exact Nat.le_refl _)
  refine ⟨_, List.length_replicate, out, log, e, ?_⟩
  have hn : (List.replicate 60 ((Params.new .b .AVX2).toState, x)).length = 60 := List.length_replicate
  have hl : 4 * log.length ≤ _ + 4 * (_ + 3 * 1001) := hl
  rw [List.map_replicate, hc, List.sum_replicate_nat] at hl
  omega

/-! ### Trees -/

theorem leafCalls_le (calls : List PSetter) (p : PParams a) {n : Nat} {key : List Byte} (r : PRep a n key p) (x : List Byte) (ln : Bool)
    (i : Fin (parDegree a)) :
    (rfcCalls a (keyedData a key (leafMsg a x i)) ln).length ≤ x.length / (degree a * bb a) + 2 := by
  have hb := bb_pos a
  have hd : degree a * bb a = stripe a := by cases a <;> rfl
  have hs := stripe_pos a
  rw [rfcCalls_length, hd]
  refine numBlocks_le _ _ (Nat.succ_pos _) ?_
  have hm : x.length ≤ (x.length / stripe a + 1) * stripe a := by
    have := Nat.div_add_mod x.length (stripe a)
    have := Nat.mod_lt x.length hs
    rw [Nat.add_mul, Nat.mul_comm]
    omega
  have hl := leaf_length_bound (a := a) i.val x _ hm
  rw [← leafMsg_eq_leaf i.isLt] at hl
  have hk : (keyPart a key).length ≤ a.bb := by
    unfold keyPart
    split
    · exact Nat.zero_le _
    · rw [pad_length _ _ (Nat.le_trans r.keyLe (by cases a <;> decide))]; exact Nat.le_refl _
  rw [keyedData_eq, List.length_append]
  have e : (x.length / stripe a + 2) * a.bb = (x.length / stripe a + 1) * a.bb + a.bb := by rw [← Nat.succ_mul]
  rw [e]
  omega

/-- C50, numbers, trees. With AVX2 a tree hash makes at most one pass for every stripe of the input, that is for `degree` blocks, and a
fixed number more: `x.length / 512 + 20` for BLAKE2bp and `x.length / 512 + 40` for BLAKE2sp. -/
theorem C50_tree_passes (calls : List PSetter) (p : PParams a) (hb : (PParams.new a .AVX2).build calls = .ok p) (x : List Byte) :
    ∃ h log, (p.hashT x).run = .ok (h, log) ∧ log.length ≤ x.length / (degree a * bb a) + 5 * degree a := by
  obtain ⟨h, log, e, hcalls, hw⟩ := C48_tree_hash .AVX2 calls p hb x
  obtain ⟨h', log', e', hn⟩ := C50_tree_hash calls p hb x
  rw [e] at e'
  have hl := (Prod.mk.inj (Except.ok.inj e')).2
  subst hl
  refine ⟨h, log, e, ?_⟩
  obtain ⟨r, _⟩ := pbuilt_rep hb
  have hroot : (callsOf none log).length ≤ 4 := by
    rw [hcalls]
    unfold PHasher.calls
    rw [rfcCalls_length, root_length { config := pconfigOf a calls, msg := x }]
    cases a <;> decide
  have hleaf : ∀ i, (callsOf (some i) log).length ≤ x.length / (degree a * bb a) + 2 := fun i => by
    rw [hcalls]
    exact leafCalls_le calls p r x _ i
  have hd : hiDegree a = degree a := by cases a <;> rfl
  have hd2 : parDegree a = degree a := by cases a <;> rfl
  have h1 : 1 < hiDegree a := by cases a <;> decide
  have main := passes_le_visits log (hiDegree a) 4 (none :: (List.finRange (parDegree a)).map some) [none]
    (fun node => match node with | none => 4 | some _ => x.length / (degree a * bb a) + 2)
    (fun q hq => widths_pos (hw q hq).2)
    (fun q _ i _ => by cases i <;> simp)
    h1
    (fun i hi => by
      cases i with
      | none => exact absurd (List.mem_singleton.2 rfl) hi
      | some i =>
        refine Nat.le_trans (Nat.le_of_eq ?_) (hn i)
        unfold passesOf
        rw [List.filter_filter]
        congr 2
        funext q
        by_cases e1 : q.length = hiDegree a <;> by_cases e2 : some i ∈ q.map Prod.fst <;> simp [e1, e2])
    (fun i _ => by
      cases i with
      | none => exact hroot
      | some i => exact hleaf i)
    (fun i hi => by
      rw [List.mem_singleton.1 hi]
      exact hroot)
  rw [List.map_cons, List.map_map, List.sum_cons, List.length_cons, List.length_map, List.length_finRange] at main
  have hsum : (List.map ((fun node : Node a => match node with | none => 4 | some _ => x.length / (degree a * bb a) + 2) ∘ some)
      (List.finRange (parDegree a))).sum = parDegree a * (x.length / (degree a * bb a) + 2) := by
    show (List.map (fun _ => x.length / (degree a * bb a) + 2) _).sum = _
    rw [List.map_const', List.sum_replicate_nat, List.length_finRange]
  dsimp only at main
  rw [hsum, hd, hd2] at main
  generalize x.length / (degree a * bb a) = q at main ⊢
  cases a <;> simp only [degree] at main ⊢ <;> omega

/-- A megabyte with BLAKE2bp: 8192 blocks in at most 2068 passes. -/
example : ∃ p, (PParams.new .b .AVX2).build [.hashLength 20, .key [1, 2]] = .ok p ∧ ∀ x : List Byte, x.length = 2 ^ 20 →
    ∃ h log, (p.hashT x).run = .ok (h, log) ∧ log.length ≤ 2068 := by
  obtain ⟨p, hp⟩ := pbuild_ok (a := .b) .AVX2 [.hashLength 20, .key [1, 2]] (by decide)
  refine ⟨p, hp, fun x hx => ?_⟩
  obtain ⟨h, log, e, hl⟩ := C50_tree_passes _ p hp x
  rw [hx] at hl
  exact ⟨h, log, e, hl⟩

end Blake2
