import Verif.Model.Benches
import Verif.Properties.FuzzMany
import Verif.Properties.Tree
/-!
# The benchmarks measure what they say, with one exception: C64
-/
namespace Blake2
open Spec Bench

variable {a : Alg}

/-- What it means for `x` to be a slice of length `len` of a buffer of `size` bytes that was allocated and filled as `m` says. -/
def Bench.Within (m : Alloc) (size len : Nat) (x : Slice) : Prop :=
  ∃ offset, offset + len ≤ size ∧ x.addr = m.addr + offset ∧ x.bytes = (List.range len).map fun i => m.fill (offset + i)

theorem Bench.Within.length {m : Alloc} {size len : Nat} {x : Slice} (h : Within m size len x) : x.bytes.length = len := by
  obtain ⟨_, _, _, e⟩ := h
  rw [e, List.length_map, List.length_range]

theorem sliceAt_ok (m : Alloc) {size offset len : Nat} (h : offset + len ≤ size) :
    sliceAt m.addr (m.buf size) offset len = .ok ⟨m.addr + offset, (List.range len).map fun i => m.fill (offset + i)⟩ := by
  have hl : (m.buf size).length = size := by rw [Alloc.buf, List.length_map, List.length_range]
  unfold sliceAt sliceFrom sliceTo
  rw [if_pos (by omega), ok_bind, if_pos (by rw [List.length_drop]; omega), ok_bind]
  congr 2
  apply List.ext_getElem
  · rw [List.length_take, List.length_drop, hl, List.length_map, List.length_range]; omega
  · intro i h1 h2
    rw [List.getElem_take, List.getElem_drop, List.getElem_map, List.getElem_range]
    simp only [Alloc.buf, List.getElem_map, List.getElem_range]

/-- A closure that goes through the states `st 0, st 1, ...`, yielding `out 0, out 1, ...`. -/
theorem runs_ok {S α : Type} (f : S → Res (α × S)) (st : Nat → S) (out : Nat → α) (h : ∀ k, f (st k) = .ok (out k, st (k + 1))) (n : Nat) :
    ∀ j, runs f n (st j) = .ok ((List.range n).map fun i => out (j + i), st (j + n)) := by
  induction n with
  | zero => intro j; rfl
  | succ n ih =>
    intro j
    rw [runs, h, ok_bind]
    show (runs f n (st (j + 1)) >>= _) = _
    rw [ih, ok_bind, List.range_succ_eq_map, List.map_cons, List.map_map]
    simp only [Function.comp_def, Nat.add_zero, Nat.add_assoc, Nat.add_comm 1]

theorem op_eq : OFFSET_PERIOD = 512 := rfl

theorem op_pos : 0 < OFFSET_PERIOD := by decide

theorem bench_len_eq : BENCH_LEN = 1000000 := rfl

attribute [local irreducible] OFFSET_PERIOD BENCH_LEN

theorem bench_ok {S α : Type} (f : S → Res (α × S)) (st : Nat → S) (out : Nat → α) (h : ∀ k, f (st k) = .ok (out k, st (k + 1))) :
    bench f (st 0) = .ok (out 0, (List.range OFFSET_PERIOD).map fun i => out (i + 1)) := by
  unfold bench
  rw [h, ok_bind]
  show (runs f OFFSET_PERIOD (st 1) >>= _) = _
  rw [runs_ok f st out h, ok_bind]
  simp only [Nat.add_comm 1]

/-! ## bench_multiprocess -/

/-- The state of an `OffsetInput` after `k` calls of `get`. -/
def Bench.offsetState (m : Alloc) (len k : Nat) : OffsetInput :=
  { OffsetInput.new m len with offsets := { (OffsetInput.new m len).offsets with i := k % OFFSET_PERIOD } }

/-- The result of the call after that. -/
def Bench.offsetSlice (m : Alloc) (len k : Nat) : Slice :=
  ⟨m.addr + (k % OFFSET_PERIOD + (OFFSET_PERIOD - m.addr % OFFSET_PERIOD)) % OFFSET_PERIOD, (List.range len).map fun i => m.fill ((k % OFFSET_PERIOD + (OFFSET_PERIOD - m.addr % OFFSET_PERIOD)) % OFFSET_PERIOD + i)⟩

theorem rotate_next (p k : Nat) (hp : 0 < p) : (if k % p + 1 ≥ p then 0 else k % p + 1) = (k + 1) % p := by
  have h := Nat.mod_lt k hp
  split
  next h1 =>
    have h2 : k % p = p - 1 := by omega
    rw [Nat.add_mod, h2]
    by_cases hp1 : p = 1
    · subst hp1; simp [Nat.mod_one]
    · rw [Nat.mod_eq_of_lt (show 1 < p by omega), show p - 1 + 1 = p by omega, Nat.mod_self]
  next h1 =>
    by_cases hp1 : p = 1
    · omega
    · rw [Nat.add_mod, Nat.mod_eq_of_lt (show 1 < p by omega), Nat.mod_eq_of_lt (show k % p + 1 < p by omega)]

theorem offsets_get (m : Alloc) (len k : Nat) : (offsetState m len k).get = .ok (offsetSlice m len k, offsetState m len (k + 1)) := by
  have hlen : (OffsetInput.new m len).offsets.vec.length = OFFSET_PERIOD := by
    show ((List.range OFFSET_PERIOD).map _).length = _
    rw [List.length_map, List.length_range]
  have hk : k % OFFSET_PERIOD < OFFSET_PERIOD := Nat.mod_lt _ op_pos
  have h1 : (offsetState m len k).offsets.next =
      .ok ((k % OFFSET_PERIOD + (OFFSET_PERIOD - m.addr % OFFSET_PERIOD)) % OFFSET_PERIOD, (offsetState m len (k + 1)).offsets) := by
    have hv : (offsetState m len k).offsets.vec[(offsetState m len k).offsets.i]? =
        some ((k % OFFSET_PERIOD + (OFFSET_PERIOD - m.addr % OFFSET_PERIOD)) % OFFSET_PERIOD) := by
      show ((List.range OFFSET_PERIOD).map fun off => (off + (OFFSET_PERIOD - m.addr % OFFSET_PERIOD)) % OFFSET_PERIOD)[k % OFFSET_PERIOD]? = _
      rw [List.getElem?_map, List.getElem?_range hk, Option.map_some]
    unfold VecIter.next getState
    rw [hv]
    simp only [ok_bind]
    congr 2
    show ({ vec := (OffsetInput.new m len).offsets.vec, i := if k % OFFSET_PERIOD + 1 ≥ (OffsetInput.new m len).offsets.vec.length then 0 else k % OFFSET_PERIOD + 1 } : VecIter) =
      { vec := (OffsetInput.new m len).offsets.vec, i := (k + 1) % OFFSET_PERIOD }
    rw [hlen, rotate_next OFFSET_PERIOD k op_pos]
  unfold OffsetInput.get
  rw [h1, ok_bind]
  show (sliceAt m.addr (m.buf (len + OFFSET_PERIOD)) ((k % OFFSET_PERIOD + (OFFSET_PERIOD - m.addr % OFFSET_PERIOD)) % OFFSET_PERIOD) len >>= _) = _
  rw [sliceAt_ok m (by have := Nat.mod_lt (k % OFFSET_PERIOD + (OFFSET_PERIOD - m.addr % OFFSET_PERIOD)) op_pos; omega), ok_bind]
  rfl

theorem offsetState_zero (m : Alloc) (len : Nat) : offsetState m len 0 = OffsetInput.new m len := by
  unfold offsetState
  rw [Nat.zero_mod]
  rfl

theorem offsetSlice_addr (m : Alloc) (len k : Nat) : (offsetSlice m len k).addr % OFFSET_PERIOD = k % OFFSET_PERIOD := by
  show (m.addr + (k % OFFSET_PERIOD + (OFFSET_PERIOD - m.addr % OFFSET_PERIOD)) % OFFSET_PERIOD) % OFFSET_PERIOD = _
  rw [op_eq]
  omega

theorem offsetSlice_within (m : Alloc) (len k : Nat) : Within m (len + OFFSET_PERIOD) len (offsetSlice m len k) :=
  ⟨_, by have := Nat.mod_lt (k % OFFSET_PERIOD + (OFFSET_PERIOD - m.addr % OFFSET_PERIOD)) op_pos; omega, rfl, rfl⟩

theorem all_offsets : List.Perm ((List.range OFFSET_PERIOD).map fun i => (i + 1) % OFFSET_PERIOD) (List.range OFFSET_PERIOD) := by
  rw [op_eq]
  have h : (List.range 512).map (fun i => (i + 1) % 512) = (List.range 511).map (· + 1) ++ [0] := by decide +kernel
  have h2 : List.range 512 = [0] ++ (List.range 511).map (· + 1) := by decide +kernel
  rw [h, h2]
  exact List.perm_append_comm

theorem getElem?_range_map {α : Type} (f : Nat → α) (n k : Nat) {x : α} (h : ((List.range n).map f)[k]? = some x) : k < n ∧ x = f k := by
  rw [List.getElem?_map] at h
  by_cases hk : k < n
  · rw [List.getElem?_range hk] at h
    exact ⟨hk, by cases h; rfl⟩
  · rw [List.getElem?_eq_none (by rw [List.length_range]; omega)] at h
    cases h

theorem map_range_map {α β : Type} (f : Nat → α) (g : α → β) (n : Nat) : ((List.range n).map f).map g = (List.range n).map fun i => g (f i) := by
  rw [List.map_map]; rfl

/-- C64, the inputs of bench_multiprocess. However the buffer was allocated and filled, `get` never panics; the slices have the right
length and lie in the buffer; and they go through the addresses modulo 512 in order. -/
theorem C64_offset_input (m : Alloc) (len n : Nat) :
    ∃ xs input, runs OffsetInput.get n (OffsetInput.new m len) = .ok (xs, input) ∧ xs.length = n ∧
      ∀ k x, xs[k]? = some x → x.addr % 512 = k % 512 ∧ Within m (len + 512) len x := by
  rw [← op_eq]
  refine ⟨_, _, runs_ok OffsetInput.get (offsetState m len) (offsetSlice m len) (offsets_get m len) n 0, by simp, fun k x h => ?_⟩
  obtain ⟨_, rfl⟩ := getElem?_range_map _ _ _ h
  rw [Nat.zero_add]
  exact ⟨offsetSlice_addr _ _ _, offsetSlice_within _ _ _⟩

theorem benchHash_ok (hash : List Byte → Res (Hash a)) (spec : List Byte → List Byte)
    (hh : ∀ x, ∃ h, hash x = .ok h ∧ h.asBytes = .ok (spec x)) (m : Alloc) :
    ∃ first timed, benchHash hash m = .ok (first, timed) ∧ List.Perm (timed.map fun r => r.1.addr % OFFSET_PERIOD) (List.range OFFSET_PERIOD) ∧
      ∀ r ∈ timed, Within m (BENCH_LEN + OFFSET_PERIOD) BENCH_LEN r.1 ∧ r.2.asBytes = .ok (spec r.1.bytes) := by
  let g : List Byte → Hash a := fun x => match hash x with | .ok h => h | .error _ => { bytes := [], len := 0 }
  have hg : ∀ x, hash x = .ok (g x) ∧ (g x).asBytes = .ok (spec x) := by
    intro x
    obtain ⟨h, e, e2⟩ := hh x
    have : g x = h := by
      show (match hash x with | .ok h => h | .error _ => { bytes := [], len := 0 } : Hash a) = h
      rw [e]
    rw [this]
    exact ⟨e, e2⟩
  refine ⟨_, _, bench_ok _ (offsetState m BENCH_LEN) (fun k => (offsetSlice m BENCH_LEN k, g (offsetSlice m BENCH_LEN k).bytes)) (fun k => ?_), ?_,
    fun r hr => ?_⟩
  · rw [offsets_get, ok_bind]
    show (hash (offsetSlice m BENCH_LEN k).bytes >>= _) = _
    rw [(hg _).1, ok_bind]
  · rw [map_range_map]
    simp only [offsetSlice_addr]
    exact all_offsets
  · obtain ⟨i, _, rfl⟩ := List.mem_map.1 hr
    exact ⟨offsetSlice_within _ _ _, (hg _).2⟩

/-- C64, `blake2b_hash`, `blake2s_hash`, `hash_blake2bp`, `hash_blake2sp`. Every timed run computes the published function of a million
bytes of the buffer, and every offset modulo 512 occurs in exactly one of the timed runs. -/
theorem C64_bench_hash (a : Alg) (plat : Platform) (m : Alloc) :
    (∃ first timed, benchHash (blake2 a plat) m = .ok (first, timed) ∧
      List.Perm (timed.map fun r => r.1.addr % 512) (List.range 512) ∧
      ∀ r ∈ timed, Within m (1000000 + 512) 1000000 r.1 ∧ r.2.asBytes = .ok (Spec.hash a (Config.default a) r.1.bytes)) ∧
    (∃ first timed, benchHash (blake2p a plat) m = .ok (first, timed) ∧
      List.Perm (timed.map fun r => r.1.addr % 512) (List.range 512) ∧
      ∀ r ∈ timed, Within m (1000000 + 512) 1000000 r.1 ∧ r.2.asBytes = .ok (Spec.hashP a (maxOut a) [] r.1.bytes)) := by
  rw [← op_eq, ← bench_len_eq]
  refine ⟨benchHash_ok (blake2 a plat) _ (fun x => ?_) m, benchHash_ok (blake2p a plat) _ (fun x => ?_) m⟩
  · cases a
    · obtain ⟨h, e, e2, _⟩ := C01_blake2b plat x; exact ⟨h, e, e2⟩
    · obtain ⟨h, e, e2, _⟩ := C02_blake2s plat x; exact ⟨h, e, e2⟩
  · cases a
    · exact C13_blake2bp plat x
    · exact C13_blake2sp plat x

theorem makeJobs_ok {I : Type} (get : I → Res (Slice × I)) (sl : I → Slice) (nx : I → I) (params : Params a) (job : Slice → HashManyJob a)
    (hj : ∀ x, HashManyJob.new params x.bytes = .ok (job x)) (cap : Nat) (ins : List I) (hget : ∀ i ∈ ins, get i = .ok (sl i, nx i)) :
    ∀ (xs : List Slice) (jobs : List (HashManyJob a)), jobs.length + ins.length ≤ cap →
      makeJobs get params cap ins xs jobs = .ok (xs ++ ins.map sl, jobs ++ ins.map (fun i => job (sl i)), ins.map nx) := by
  induction ins with
  | nil => intro xs jobs _; simp [makeJobs]
  | cons i ins ih =>
    intro xs jobs hc
    rw [List.length_cons] at hc
    rw [makeJobs, hget i (by simp), ok_bind]
    show (HashManyJob.new params (sl i).bytes >>= _) = _
    rw [hj, ok_bind, arrayPush_ok (by omega), ok_bind,
      ih (fun j hj => hget j (by simp [hj])) _ _ (by rw [List.length_append, List.length_singleton]; omega), ok_bind]
    simp

theorem new_job_ok (plat : Platform) : ∃ job : Slice → HashManyJob a, ∀ x : Slice, HashManyJob.new (Params.new a plat) x.bytes = .ok (job x) := by
  have h : ∀ x : Slice, ∃ j, HashManyJob.new (Params.new a plat) x.bytes = .ok j := fun x => by
    obtain ⟨j, e, _⟩ := hashManyJob_new (rep_new a plat) x.bytes
    exact ⟨j, e⟩
  exact ⟨fun x => (h x).choose, fun x => (h x).choose_spec⟩

/-- What `hash_many` makes of jobs with default parameters. -/
theorem hash_many_default (plat : Platform) (job : Slice → HashManyJob a) (hj : ∀ x, HashManyJob.new (Params.new a plat) x.bytes = .ok (job x))
    (xs : List Slice) :
    ∃ out, hashMany (xs.map job) = .ok out ∧ out.length = xs.length ∧
      ∀ (i : Nat) (x : Slice), xs[i]? = some x → ∃ j h, out[i]? = some j ∧ (∀ dbg, j.toHash dbg = .ok h) ∧
        h.asBytes = .ok (Spec.hash a (Config.default a) x.bytes) := by
  have hb : Built (Params.new a plat) := ⟨plat, [], rfl⟩
  obtain ⟨jobs, out, e1, e2, hl, h3⟩ := C10_hash_many (xs.map fun x => (Params.new a plat, x.bytes)) (by
    intro q hq
    obtain ⟨x, _, rfl⟩ := List.mem_map.1 hq
    exact hb)
  have e3 : jobs = xs.map job := by
    have e4 : (xs.map fun x => (Params.new a plat, x.bytes)).mapM (fun q => HashManyJob.new q.1 q.2) = .ok (xs.map job) := by
      rw [List.mapM_map]
      exact list_mapM_ok _ job xs fun x _ => hj x
    rw [e4] at e1
    cases e1
    rfl
  refine ⟨out, e3 ▸ e2, by rw [hl, List.length_map], fun i x hx => ?_⟩
  obtain ⟨j, h, h1, h2, h4⟩ := h3 i (Params.new a plat) x.bytes (by rw [List.getElem?_map, hx]; rfl)
  refine ⟨j, h, h1, h4, ?_⟩
  rw [hash_eq (rep_new a plat)] at h2
  cases h2
  exact asBytes_full (rep_new a plat) _

/-- A run of `blake2b_hash_many` is as it should be: one input in each lane, together a million bytes, each hashed right. -/
def Bench.RightRun (a : Alg) (degree : Nat) (r : List Slice × List (HashManyJob a)) : Prop :=
  r.1.length = degree ∧ r.2.length = degree ∧ (r.1.map fun x => x.bytes.length).sum = 1000000 ∧
    ∀ (i : Nat) (x : Slice), r.1[i]? = some x → x.bytes.length = 1000000 / degree ∧
      ∃ j h, r.2[i]? = some j ∧ (∀ dbg, j.toHash dbg = .ok h) ∧ h.asBytes = .ok (Spec.hash a (Config.default a) x.bytes)

theorem manyDegree_cases (a : Alg) (e : Machine) : manyDegree a e = 1 ∨ manyDegree a e = 2 ∨ manyDegree a e = 4 ∨ manyDegree a e = 8 := by
  unfold manyDegree
  cases a <;> cases detect e <;> decide

theorem benchHashMany_ok (a : Alg) (e : Machine) (allocs : Nat → Alloc) (shuffle : Nat → List Nat → List Nat) :
    ∃ first timed, benchHashMany a e allocs shuffle = .ok (first, timed) ∧ timed.length = OFFSET_PERIOD ∧
      ∀ (k : Nat) (r : List Slice × List (HashManyJob a)), timed[k]? = some r → RightRun a (manyDegree a e) r ∧
        ∀ x ∈ r.1, x.addr % OFFSET_PERIOD = (k + 1) % OFFSET_PERIOD := by
  obtain ⟨job, hj⟩ := new_job_ok (a := a) (detect e)
  have hd : manyDegree a e ≤ maxDegreeOn a e.x86 := by
    unfold manyDegree maxDegreeOn
    cases hx : e.x86
    · have : detect e = .Portable := by simp [detect, hx]
      rw [this]; cases a <;> decide
    · cases a <;> cases detect e <;> decide
  let n := manyDegree a e
  let len := BENCH_LEN / n
  let slices : Nat → List Slice := fun k => (List.range n).map fun i => offsetSlice (allocs (2 * i + 1)) len k
  have hout : ∀ k, ∃ out, hashMany ((slices k).map job) = .ok out ∧ out.length = (slices k).length ∧
      ∀ (i : Nat) (x : Slice), (slices k)[i]? = some x → ∃ j h, out[i]? = some j ∧ (∀ dbg, j.toHash dbg = .ok h) ∧
        h.asBytes = .ok (Spec.hash a (Config.default a) x.bytes) := fun k => hash_many_default (detect e) job hj (slices k)
  obtain ⟨out, hout⟩ := Classical.axiomOfChoice hout
  have e0 : manyBenchInputs allocs shuffle len n = (List.range n).map fun i => offsetState (allocs (2 * i + 1)) len 0 := by
    simp only [offsetState_zero]
    rfl
  unfold benchHashMany
  show ∃ first timed, bench _ (manyBenchInputs allocs shuffle len n) = .ok (first, timed) ∧ _
  rw [e0]
  refine ⟨_, _, bench_ok _ (fun k => (List.range n).map fun i => offsetState (allocs (2 * i + 1)) len k)
    (fun k => (slices k, out k)) (fun k => ?_), by simp, fun k r hr => ?_⟩
  · rw [makeJobs_ok OffsetInput.get (fun o => match o.get with | .ok r => r.1 | .error _ => ⟨0, []⟩)
      (fun o => match o.get with | .ok r => r.2 | .error _ => o) (Params.new a (detect e)) job hj _ _ (by
        intro o ho
        obtain ⟨i, _, rfl⟩ := List.mem_map.1 ho
        rw [offsets_get]) [] [] (by rw [List.length_nil, List.length_map, List.length_range]; omega), ok_bind]
    have e1 : List.map (fun o : OffsetInput => match o.get with | .ok r => r.1 | .error _ => ⟨0, []⟩)
        ((List.range n).map fun i => offsetState (allocs (2 * i + 1)) len k) = slices k := by
      rw [map_range_map]
      simp only [offsets_get]
      rfl
    have e2 : List.map (fun o : OffsetInput => match o.get with | .ok r => r.2 | .error _ => o)
        ((List.range n).map fun i => offsetState (allocs (2 * i + 1)) len k) = (List.range n).map fun i => offsetState (allocs (2 * i + 1)) len (k + 1) := by
      rw [map_range_map]
      simp only [offsets_get]
    have e3 : List.map (fun o : OffsetInput => job (match o.get with | .ok r => r.1 | .error _ => ⟨0, []⟩))
        ((List.range n).map fun i => offsetState (allocs (2 * i + 1)) len k) = (slices k).map job := by
      rw [← e1]
      simp only [List.map_map, Function.comp_def]
    simp only [List.nil_append, e1, e2, e3]
    rw [(hout k).1, ok_bind]
  · obtain ⟨hk, rfl⟩ := getElem?_range_map _ _ _ hr
    have hsum : ((slices (k + 1)).map fun x => x.bytes.length).sum = n * len := by
      show (((List.range n).map _).map _).sum = _
      rw [map_range_map]
      have : (fun i => (offsetSlice (allocs (2 * i + 1)) len (k + 1)).bytes.length) = fun _ => len :=
        funext fun i => (offsetSlice_within _ _ _).length
      rw [this, List.map_const', List.length_range, List.sum_replicate_nat]
    have hn : n * len = 1000000 := by
      show manyDegree a e * (BENCH_LEN / manyDegree a e) = _
      rw [bench_len_eq]
      rcases manyDegree_cases a e with h | h | h | h <;> rw [h]
    have hls : (slices (k + 1)).length = n := by
      show ((List.range n).map _).length = _
      rw [List.length_map, List.length_range]
    refine ⟨⟨hls, (hout (k + 1)).2.1.trans hls, hsum.trans hn, fun i x hx => ⟨?_, (hout (k + 1)).2.2 i x hx⟩⟩,
      fun x hx => ?_⟩
    · obtain ⟨_, rfl⟩ := getElem?_range_map _ _ _ hx
      rw [← bench_len_eq]
      exact (offsetSlice_within _ _ _).length
    · obtain ⟨i, _, rfl⟩ := List.mem_map.1 hx
      exact offsetSlice_addr _ _ _

/-- C64, `blake2b_hash_many` and `blake2s_hash_many`. They never panic, and every timed run hashes `degree()` inputs, a million bytes in
all, each right. -/
theorem C64_bench_hash_many (a : Alg) (e : Machine) (allocs : Nat → Alloc) (shuffle : Nat → List Nat → List Nat) :
    ∃ first timed, benchHashMany a e allocs shuffle = .ok (first, timed) ∧ timed.length = 512 ∧ ∀ r ∈ timed, RightRun a (manyDegree a e) r := by
  rw [← op_eq]
  obtain ⟨first, timed, h1, h2, h3⟩ := benchHashMany_ok a e allocs shuffle
  refine ⟨first, timed, h1, h2, fun r hr => ?_⟩
  obtain ⟨k, hk, rfl⟩ := List.mem_iff_getElem.1 hr
  exact (h3 k _ (List.getElem?_eq_getElem hk)).1

/-- C64, a defect. The comment above `blake2b_hash_many` says that it does each run "with N=degree inputs at uncorrelated offsets". It
does not: wherever the buffers are allocated and whatever the shuffles do, in each run all inputs are at the same offset modulo 512. -/
theorem C64_offsets_correlated (a : Alg) (e : Machine) (allocs : Nat → Alloc) (shuffle : Nat → List Nat → List Nat) :
    ∃ first timed, benchHashMany a e allocs shuffle = .ok (first, timed) ∧ timed.length = 512 ∧
      ∀ r ∈ timed, ∀ x ∈ r.1, ∀ y ∈ r.1, x.addr % 512 = y.addr % 512 := by
  rw [← op_eq]
  obtain ⟨first, timed, h1, h2, h3⟩ := benchHashMany_ok a e allocs shuffle
  refine ⟨first, timed, h1, h2, fun r hr x hx y hy => ?_⟩
  obtain ⟨k, hk, rfl⟩ := List.mem_iff_getElem.1 hr
  have h := (h3 k _ (List.getElem?_eq_getElem hk)).2
  rw [h x hx, h y hy]

/-- On a machine with AVX2 there are eight inputs in each run of `blake2s_hash_many`, so there is something to be correlated. -/
example (allocs : Nat → Alloc) (shuffle : Nat → List Nat → List Nat) :
    ∃ first timed, benchHashMany .s ⟨true, false, false, true, true, true⟩ allocs shuffle = .ok (first, timed) ∧ ∀ r ∈ timed, r.1.length = 8 := by
  obtain ⟨first, timed, h1, _, h3⟩ := C64_bench_hash_many .s ⟨true, false, false, true, true, true⟩ allocs shuffle
  exact ⟨first, timed, h1, fun r hr => (h3 r hr).1⟩

/-! ## bench.rs -/

/-- The state of a `RandomInput` after `k` calls of `get`. -/
def Bench.randomState (p : Nat) (m : Alloc) (shuffle : List Nat → List Nat) (len k : Nat) : RandomInput :=
  { (RandomInput.new p m shuffle len).1 with offsetIndex := k % p }

/-- The result of the call after that. -/
def Bench.randomSlice (p : Nat) (m : Alloc) (shuffle : List Nat → List Nat) (len k : Nat) : Slice :=
  ⟨m.addr + (shuffle (List.range p)).getD (k % p) 0, (List.range len).map fun i => m.fill ((shuffle (List.range p)).getD (k % p) 0 + i)⟩

theorem shuffled_lt {p : Nat} {shuffle : List Nat → List Nat} (hs : List.Perm (shuffle (List.range p)) (List.range p)) (hp : 0 < p) (k : Nat) :
    (shuffle (List.range p)).getD (k % p) 0 < p := by
  have hl : (shuffle (List.range p)).length = p := by rw [hs.length_eq, List.length_range]
  have hk : k % p < (shuffle (List.range p)).length := by rw [hl]; exact Nat.mod_lt _ hp
  rw [List.getD_eq_getElem?_getD, List.getElem?_eq_getElem hk, Option.getD_some]
  exact List.mem_range.1 (hs.mem_iff.1 (List.getElem_mem hk))

theorem random_get {p : Nat} (hp : 0 < p) (m : Alloc) {shuffle : List Nat → List Nat} (hs : List.Perm (shuffle (List.range p)) (List.range p)) (len k : Nat) :
    (randomState p m shuffle len k).get = .ok (randomSlice p m shuffle len k, randomState p m shuffle len (k + 1)) := by
  have hl : (shuffle (List.range p)).length = p := by rw [hs.length_eq, List.length_range]
  have hk : k % p < (shuffle (List.range p)).length := by rw [hl]; exact Nat.mod_lt _ hp
  have h1 : getState (shuffle (List.range p)) (k % p) = .ok ((shuffle (List.range p)).getD (k % p) 0) := by
    unfold getState
    rw [List.getD_eq_getElem?_getD, List.getElem?_eq_getElem hk, Option.getD_some]
  unfold RandomInput.get
  show (getState (shuffle (List.range p)) (k % p) >>= _) = _
  rw [h1, ok_bind]
  show (sliceAt m.addr (m.buf (len + p)) _ len >>= _) = _
  rw [sliceAt_ok m (by have := shuffled_lt hs hp k; omega), ok_bind]
  show Except.ok (_, ({ (RandomInput.new p m shuffle len).1 with
    offsetIndex := if k % p + 1 ≥ (shuffle (List.range p)).length then 0 else k % p + 1 } : RandomInput)) = _
  rw [hl, rotate_next p k hp]
  rfl

theorem randomSlice_within {p : Nat} (hp : 0 < p) (m : Alloc) {shuffle : List Nat → List Nat} (hs : List.Perm (shuffle (List.range p)) (List.range p))
    (len k : Nat) : Within m (len + p) len (randomSlice p m shuffle len k) :=
  ⟨_, by have := shuffled_lt hs hp k; omega, rfl, rfl⟩

theorem rotation_perm (l : List Nat) (j : Nat) (hl : 0 < l.length) :
    List.Perm ((List.range l.length).map fun i => l.getD ((j + i) % l.length) 0) l := by
  have hj : j % l.length < l.length := Nat.mod_lt _ hl
  have h : (List.range l.length).map (fun i => l.getD ((j + i) % l.length) 0) = l.drop (j % l.length) ++ l.take (j % l.length) := by
    apply List.ext_getElem
    · rw [List.length_map, List.length_range, List.length_append, List.length_drop, List.length_take]; omega
    · intro i h1 h2
      rw [List.length_map, List.length_range] at h1
      rw [List.getElem_map, List.getElem_range, List.getD_eq_getElem?_getD]
      have hm : (j + i) % l.length = if j % l.length + i < l.length then j % l.length + i else j % l.length + i - l.length := by
        rw [Nat.add_mod, Nat.mod_eq_of_lt h1]
        split
        next h => exact Nat.mod_eq_of_lt h
        next h => rw [Nat.mod_eq_sub_mod (by omega), Nat.mod_eq_of_lt (by omega)]
      rw [List.getElem_append]
      split
      next h =>
        rw [List.length_drop] at h
        rw [hm, if_pos (by omega), List.getElem?_eq_getElem (by omega), Option.getD_some, List.getElem_drop]
      next h =>
        rw [List.length_drop] at h
        rw [hm, if_neg (by omega), List.getElem?_eq_getElem (by omega), Option.getD_some, List.getElem_take]
        congr 1
        rw [List.length_drop]
        omega
  rw [h]
  refine List.perm_append_comm.trans ?_
  rw [List.take_append_drop]

/-- C64, the inputs of bench.rs. Whatever the size of a page, the buffer and the shuffle, `get` never panics, the slices have the right length
and lie in the buffer, and among as many consecutive ones as a page has bytes every offset occurs once. -/
theorem C64_random_input (p : Nat) (hp : 0 < p) (m : Alloc) (shuffle : List Nat → List Nat)
    (hs : List.Perm (shuffle (List.range p)) (List.range p)) (len n : Nat) :
    ∃ xs input, runs RandomInput.get n (RandomInput.new p m shuffle len).1 = .ok (xs, input) ∧ xs.length = n ∧
      (∀ x ∈ xs, Within m (len + p) len x) ∧
      ∀ j, j + p ≤ n → List.Perm (((xs.drop j).take p).map fun x => x.addr - m.addr) (List.range p) := by
  have e0 : (RandomInput.new p m shuffle len).1 = randomState p m shuffle len 0 := by
    unfold randomState
    rw [Nat.zero_mod]
    rfl
  rw [e0]
  refine ⟨_, _, runs_ok RandomInput.get (randomState p m shuffle len) (randomSlice p m shuffle len) (random_get hp m hs len) n 0, by simp,
    fun x hx => ?_, fun j hj => ?_⟩
  · obtain ⟨i, _, rfl⟩ := List.mem_map.1 hx
    exact randomSlice_within hp m hs len _
  · have hl : (shuffle (List.range p)).length = p := by rw [hs.length_eq, List.length_range]
    have e : (((List.range n).map fun i => randomSlice p m shuffle len (0 + i)).drop j).take p =
        (List.range p).map fun i => randomSlice p m shuffle len (j + i) := by
      apply List.ext_getElem
      · simp; omega
      · intro i h1 h2
        simp
    rw [e, map_range_map]
    have e2 : (fun i => (randomSlice p m shuffle len (j + i)).addr - m.addr) = fun i => (shuffle (List.range p)).getD ((j + i) % p) 0 :=
      funext fun i => by show m.addr + _ - m.addr = _; omega
    rw [e2]
    have h := rotation_perm (shuffle (List.range p)) j (by rw [hl]; exact hp)
    rw [hl] at h
    exact h.trans hs

/-- A benchmark of one input, for a function that always returns. -/
theorem benchOne_ok {α : Type} (p : Nat) (hp : 0 < p) (m : Alloc) (shuffle : List Nat → List Nat)
    (hs : List.Perm (shuffle (List.range p)) (List.range p)) (len n : Nat)
    (hash : List Byte → Res α) (P : List Byte → α → Prop) (hh : ∀ x, x.length = len → ∃ h, hash x = .ok h ∧ P x h) :
    ∃ rs, benchOne hash p m shuffle len n = .ok (rs, len) ∧ rs.length = n ∧ ∀ r ∈ rs, Within m (len + p) len r.1 ∧ P r.1.bytes r.2 := by
  have hlen : ∀ k, (randomSlice p m shuffle len k).bytes.length = len := fun k => (randomSlice_within hp m hs len k).length
  let g : Nat → α := fun k => (hh _ (hlen k)).choose
  have hg : ∀ k, hash (randomSlice p m shuffle len k).bytes = .ok (g k) ∧ P (randomSlice p m shuffle len k).bytes (g k) :=
    fun k => (hh _ (hlen k)).choose_spec
  have e0 : (RandomInput.new p m shuffle len).1 = randomState p m shuffle len 0 := by
    unfold randomState
    rw [Nat.zero_mod]
    rfl
  have hrun := runs_ok (fun input => do
      let (x, input) ← RandomInput.get input
      let h ← hash x.bytes
      .ok ((x, h), input)) (randomState p m shuffle len)
    (fun k => (randomSlice p m shuffle len k, g k)) (fun k => by
      rw [random_get hp m hs, ok_bind]
      show (hash (randomSlice p m shuffle len k).bytes >>= _) = _
      rw [(hg _).1, ok_bind]) n 0
  refine ⟨(List.range n).map fun i => (randomSlice p m shuffle len (0 + i), g (0 + i)), ?_, by simp, fun r hr => ?_⟩
  · unfold benchOne
    show (runs _ n (RandomInput.new p m shuffle len).1 >>= _) = _
    rw [e0, hrun, ok_bind]
  · obtain ⟨i, _, rfl⟩ := List.mem_map.1 hr
    exact ⟨randomSlice_within hp m hs len _, (hg _).2⟩

/-- C64, the benchmarks of bench.rs with one input: any number of runs, each of which computes the published function of `len` bytes of the buffer, which is
what is counted for a run. `hash` is `blake2b`, `Params::hash` with the portable implementation, or `blake2bp`, and likewise for BLAKE2s. -/
theorem C64_bench_one (p : Nat) (hp : 0 < p) (m : Alloc) (shuffle : List Nat → List Nat)
    (hs : List.Perm (shuffle (List.range p)) (List.range p)) (plat : Platform) (len n : Nat)
    (hash : List Byte → Res (Hash a)) (spec : List Byte → List Byte)
    (hf : (hash = blake2 a plat ∨ hash = (Params.new a plat).forcePortable.hash) ∧ spec = Spec.hash a (Config.default a) ∨
      hash = blake2p a plat ∧ spec = Spec.hashP a (maxOut a) []) :
    ∃ rs, benchOne hash p m shuffle len n = .ok (rs, len) ∧ rs.length = n ∧
      ∀ r ∈ rs, Within m (len + p) len r.1 ∧ r.2.asBytes = .ok (spec r.1.bytes) := by
  have hh : ∀ x, ∃ h, hash x = .ok h ∧ h.asBytes = .ok (spec x) := by
    intro x
    rcases hf with ⟨rfl | rfl, rfl⟩ | ⟨rfl, rfl⟩
    · cases a
      · obtain ⟨h, e, e2, _⟩ := C01_blake2b plat x; exact ⟨h, e, e2⟩
      · obtain ⟨h, e, e2, _⟩ := C02_blake2s plat x; exact ⟨h, e, e2⟩
    · have hr : Rep a (Config.default a) (Params.new a plat).forcePortable := rep_new a .Portable
      exact ⟨_, hash_eq hr x, asBytes_full hr x⟩
    · cases a
      · exact C13_blake2bp plat x
      · exact C13_blake2sp plat x
  exact benchOne_ok p hp m shuffle hs len n hash (fun x h => h.asBytes = .ok (spec x)) fun x _ => hh x

/-- C64, the benchmarks of bench.rs with several inputs: any number of runs, each of which computes the published function of each of its inputs; what is
counted for a run is their total length. -/
theorem C64_bench_many (a : Alg) (e : Machine) (dbg : Bool) (p : Nat) (hp : 0 < p) (allocs : Nat → Alloc) (shuffle : Nat → List Nat → List Nat)
    (hs : ∀ k, List.Perm (shuffle k (List.range p)) (List.range p)) (width len n : Nat) :
    ∃ rs, benchMany a e dbg p allocs shuffle width len n = .ok (rs, width * len) ∧ rs.length = n ∧
      ∀ r ∈ rs, r.1.length = width ∧ r.2.length = width ∧ (∀ (i : Nat) (x : Slice), r.1[i]? = some x → Within (allocs i) (len + p) len x ∧
        ∃ h, r.2[i]? = some h ∧ h.asBytes = .ok (Spec.hash a (Config.default a) x.bytes)) := by
  obtain ⟨job, hj⟩ := new_job_ok (a := a) (detect e)
  let slices : Nat → List Slice := fun k => (List.range width).map fun i => randomSlice p (allocs i) (shuffle i) len k
  have hout : ∀ k, ∃ o : List (HashManyJob a) × List (Hash a), hashMany ((slices k).map job) = .ok o.1 ∧ (o.1.mapM fun j => j.toHash dbg) = .ok o.2 ∧
      o.2.length = (slices k).length ∧ ∀ (i : Nat) (x : Slice), (slices k)[i]? = some x → ∃ h, o.2[i]? = some h ∧ h.asBytes = .ok (Spec.hash a (Config.default a) x.bytes) := by
    intro k
    obtain ⟨out, h1, h2, h3⟩ := hash_many_default (detect e) job hj (slices k)
    have ht : ∀ j ∈ out, j.toHash dbg = .ok (match j.toHash dbg with | .ok h => h | .error _ => { bytes := [], len := 0 }) := by
      intro j hjm
      obtain ⟨i, hi, rfl⟩ := List.mem_iff_getElem.1 hjm
      obtain ⟨j', h, g1, g2, _⟩ := h3 i _ (List.getElem?_eq_getElem (by rw [← h2]; exact hi))
      rw [List.getElem?_eq_getElem hi] at g1
      cases g1
      rw [g2 dbg]
    refine ⟨(out, _), h1, list_mapM_ok _ _ out ht, by rw [List.length_map, h2], fun i x hx => ?_⟩
    obtain ⟨j, h, g1, g2, g3⟩ := h3 i x hx
    refine ⟨h, ?_, g3⟩
    rw [List.getElem?_map, g1, Option.map_some, g2 dbg]
  obtain ⟨o, hout⟩ := Classical.axiomOfChoice hout
  have e0 : ((List.range width).map fun k => RandomInput.new p (allocs k) (shuffle k) len).map Prod.fst =
      (List.range width).map fun i => randomState p (allocs i) (shuffle i) len 0 := by
    rw [map_range_map]
    unfold randomState
    rw [Nat.zero_mod]
    rfl
  have hrun := runs_ok (fun inputs => do
      let (xs, jobs, inputs) ← makeJobs RandomInput.get (Params.new a (detect e)) width inputs [] []
      let jobs ← hashMany jobs
      let hashes ← jobs.mapM fun j => j.toHash dbg
      .ok ((xs, hashes), inputs)) (fun k => (List.range width).map fun i => randomState p (allocs i) (shuffle i) len k)
    (fun k => (slices k, (o k).2)) (fun k => by
      rw [makeJobs_ok RandomInput.get (fun o => match o.get with | .ok r => r.1 | .error _ => ⟨0, []⟩)
        (fun o => match o.get with | .ok r => r.2 | .error _ => o) (Params.new a (detect e)) job hj _ _ (by
          intro o ho
          obtain ⟨i, _, rfl⟩ := List.mem_map.1 ho
          rw [random_get hp _ (hs i)]) [] [] (by rw [List.length_nil, List.length_map, List.length_range]; omega), ok_bind]
      have e1 : List.map (fun o : RandomInput => match o.get with | .ok r => r.1 | .error _ => ⟨0, []⟩)
          ((List.range width).map fun i => randomState p (allocs i) (shuffle i) len k) = slices k := by
        rw [map_range_map]
        simp only [random_get hp _ (hs _)]
        rfl
      have e2 : List.map (fun o : RandomInput => match o.get with | .ok r => r.2 | .error _ => o)
          ((List.range width).map fun i => randomState p (allocs i) (shuffle i) len k) =
          (List.range width).map fun i => randomState p (allocs i) (shuffle i) len (k + 1) := by
        rw [map_range_map]
        simp only [random_get hp _ (hs _)]
      have e3 : List.map (fun o : RandomInput => job (match o.get with | .ok r => r.1 | .error _ => ⟨0, []⟩))
          ((List.range width).map fun i => randomState p (allocs i) (shuffle i) len k) = (slices k).map job := by
        rw [← e1]
        simp only [List.map_map, Function.comp_def]
      simp only [List.nil_append, e1, e2, e3]
      rw [(hout k).1, ok_bind, (hout k).2.1, ok_bind]) n 0
  refine ⟨(List.range n).map fun i => (slices (0 + i), (o (0 + i)).2), ?_, by simp, fun r hr => ?_⟩
  · unfold benchMany
    show (runs _ n (((List.range width).map fun k => RandomInput.new p (allocs k) (shuffle k) len).map Prod.fst) >>= _) = _
    rw [e0, hrun, ok_bind]
    rw [map_range_map]
    show Except.ok (_, ((List.range width).map fun _ => len).sum) = _
    rw [List.map_const', List.length_range, List.sum_replicate_nat]
  · obtain ⟨k, _, rfl⟩ := List.mem_map.1 hr
    have hls : (slices (0 + k)).length = width := by
      show ((List.range width).map _).length = _
      rw [List.length_map, List.length_range]
    refine ⟨hls, (hout (0 + k)).2.2.1.trans hls, fun i x hx => ⟨?_, (hout (0 + k)).2.2.2 i x hx⟩⟩
    obtain ⟨_, rfl⟩ := getElem?_range_map _ _ _ hx
    exact randomSlice_within hp _ (hs _) len _

/-- The hypotheses are met: pages of 4096 bytes, a shuffle that reverses. -/
example (e : Machine) (allocs : Nat → Alloc) : ∃ rs, benchMany .s e true 4096 allocs (fun _ l => l.reverse) 8 64 100 = .ok (rs, 512) ∧ rs.length = 100 := by
  obtain ⟨rs, h1, h2, _⟩ := C64_bench_many .s e true 4096 (by decide) allocs (fun _ l => l.reverse) (fun _ => List.reverse_perm _) 8 64 100
  exact ⟨rs, h1, h2⟩

end Blake2
