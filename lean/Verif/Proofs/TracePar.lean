import Verif.Proofs.TraceHashMany
import Verif.Proofs.ParSpec
/-! # The compressions of the tree variants -/
namespace Blake2
open Spec Traced

variable {a : Alg}

/-! ## One batch over the leaves -/

/-- The log of one batch, if leaf `i` has to make the calls `calls i`. -/
def batchLog (a : Alg) (imp : Platform) (calls : Fin (parDegree a) → List (Call a)) : List (Pass a (Node a)) :=
  rename some (Sched.run (fun i => ([], some (calls i))) (implDegree a imp) (hiDegree a) (loDegree a)
    (List.finRange (parDegree a)))

theorem batchLog_leaf (imp : Platform) (calls : Fin (parDegree a) → List (Call a)) (i : Fin (parDegree a)) :
    callsOf (some i) (batchLog a imp calls) = calls i := by
  unfold batchLog
  rw [callsOf_rename (fun _ _ h => Option.some.inj h), callsOf_eq_mine, Sched.run_mine _ _ _ _ _ (List.nodup_finRange _),
    if_pos (List.mem_finRange _)]
  rfl

theorem batchLog_root (imp : Platform) (calls : Fin (parDegree a) → List (Call a)) :
    callsOf none (batchLog a imp calls) = [] := by
  unfold batchLog
  exact callsOf_rename_other (i := none) (fun _ h => by cases h) _

theorem batchLog_lanes (imp : Platform) (calls : Fin (parDegree a) → List (Call a)) :
    ∀ p ∈ batchLog a imp calls, (p.map Prod.fst).Nodup ∧ p.length ∈ widths a := by
  have hs := Sched.run_shaped (fun i : Fin (parDegree a) => (([] : List (Call a)), some (calls i)))
    (degree := implDegree a imp) (hi := hiDegree a) (lo := loDegree a) (W := widths a) (by simp [widths]) (by simp [widths])
    (by simp [widths]) _ (List.nodup_finRange _)
  intro p hp
  refine ⟨rename_nodup (fun _ _ h => Option.some.inj h) (fun q hq => (hs q hq).1) p hp, ?_⟩
  obtain ⟨q, hq, rfl⟩ := List.mem_map.1 hp
  rw [List.length_map]
  exact (hs q hq).2

theorem batchLog_shape (imp : Platform) (calls calls' : Fin (parDegree a) → List (Call a))
    (h : ∀ i, (calls i).map Call.shape = (calls' i).map Call.shape) :
    shapes (batchLog a imp calls) = shapes (batchLog a imp calls') := by
  unfold batchLog
  rw [shapes_rename, shapes_rename, ← Sched.run_map, ← Sched.run_map]
  congr 2
  funext i
  simp only [Sched.mapPull, Option.map_some, h i]

/-- `compress_many` over the leaves. -/
theorem compressLeavesT_eq (mkJob : Fin (parDegree a) → Res (List Byte × Count a × Bool)) (imp : Platform) (fin : Bool)
    (leaves : LeafWords a) (f : Fin (parDegree a) → List Byte × Count a × Bool) (h : ∀ i, mkJob i = .ok (f i))
    (hin : ∀ i, InputOk a fin (f i).1) (hc : ∀ i, (f i).2.1.toNat % a.bb = 0) :
    compressLeavesT mkJob imp fin leaves =
      ret (Vector.ofFn fun i => absorb a .Parallel fin (f i).2.2 leaves[i] (f i).2.1 (f i).1)
        (batchLog a imp fun i => absorbCalls a .Parallel fin (f i).2.2 (f i).2.1 (f i).1) := by
  unfold compressLeavesT
  simp only
  have e := compressManyT_eq (final := fun i => absorb a .Parallel fin (f i).2.2 leaves[i] (f i).2.1 (f i).1)
    (pull := fun i => ([], some (absorbCalls a .Parallel fin (f i).2.2 (f i).2.1 (f i).1)))
    (src := { pull := fun i w => do
                let (input, count, lastNode) ← mkJob i
                pure (w, some { id := i, input := input, count := count, lastNode := lastNode })
              getWords := fun w => w
              setWords := fun _ w => w })
    (mem0 := fun i => leaves[i]) ⟨fun _ _ => rfl, fun _ _ _ => rfl⟩ imp fin .Parallel (queue := List.finRange (parDegree a))
    (List.nodup_finRange _) (fun i _ => by
      have hp : ((do
          let (input, count, lastNode) ← mkJob i
          pure (leaves[i], some { id := i, input := input, count := count, lastNode := lastNode }) :
            Traced a (Fin (parDegree a)) (Vector (Word a) 8 × Option (JobRef a (Fin (parDegree a)))))) =
          ret (leaves[i], some { id := i, input := (f i).1, count := (f i).2.1, lastNode := (f i).2.2 }) [] := by
        rw [lift_bind (h i)]; rfl
      refine ⟨?_, ⟨_, _, hp, rfl, fun j hj => by cases hj; rfl⟩⟩
      unfold Many.PullOk
      simp only [SourceT.erase]
      rw [hp]
      exact ⟨_, _, rfl, rfl, ⟨hin i, hc i⟩, rfl⟩)
    (fun i hi => absurd (List.mem_finRange i) hi)
  rw [e, relabel_ret]
  exact (bind_ret (l' := []) rfl rfl).trans (by rw [List.append_nil]; rfl)

/-! ## The calls of a leaf -/

theorem absorbCalls_gather (s : Stride) (fin ln : Bool) (c : Count a) (input : List Byte) :
    absorbCalls a s fin ln c input = absorbCalls a .Serial fin ln c (gather a (s.padded a) (padded_pos a s) input) := by
  have hb := bb_pos a
  have hle := bb_le_padded a s
  have hpad : Stride.Serial.padded a = a.bb := rfl
  induction hn : input.length using Nat.strongRecOn generalizing c input with
  | _ n ih =>
    subst hn
    rw [gather]
    by_cases hl : input.length ≤ s.padded a
    · rw [absorbCalls, if_pos hl, if_pos hl, absorbCalls, hpad,
        if_pos (by rw [List.length_take]; exact Nat.min_le_left _ _), List.take_take, Nat.min_self]
      have e : min a.bb (input.take a.bb).length = min a.bb input.length := by rw [List.length_take]; omega
      rw [e]
    · rw [absorbCalls, if_neg hl, if_neg hl]
      have hdne : input.drop (s.padded a) ≠ [] := by
        intro he; have := congrArg List.length he; rw [List.length_drop, List.length_nil] at this; omega
      have hgl := List.length_pos_iff.2 (gather_ne_nil (a := a) _ (padded_pos a s) _ hdne)
      have htl : (input.take a.bb).length = a.bb := by simp; omega
      rw [ih _ (by simp; omega) _ _ rfl]
      conv => rhs; rw [absorbCalls, hpad, if_neg (by rw [List.length_append, htl]; omega)]
      rw [List.take_left' htl, List.drop_left' htl]

theorem leading_length (D : List Byte) (k : Nat) : (leading a D k).length = k := by simp [leading]

/-- The calls for blocks `k` to `k + m` of every leaf. -/
def stripeCalls (a : Alg) (D : List Byte) (k m : Nat) (i : Fin (parDegree a)) : List (Call a) :=
  (leading a (leaf a i D) (k + m)).drop k

theorem absorbCalls_leaf_nonfinal (i : Fin (parDegree a)) (D : List Byte) (ln : Bool)
    (m k : Nat) (hm : 0 < m) (hk : (k + m) * stripe a ≤ D.length) :
    absorbCalls a .Parallel false ln (BitVec.ofNat _ (k * a.bb))
      (((D.drop (k * stripe a)).take (m * stripe a)).drop (i.val * a.bb)) = stripeCalls a D k m i := by
  have e : (k + m) * stripe a = k * stripe a + m * stripe a := Nat.add_mul ..
  rw [absorbCalls_gather]
  have : gather a (Stride.Parallel.padded a) (padded_pos a .Parallel)
      (((D.drop (k * stripe a)).take (m * stripe a)).drop (i.val * a.bb)) =
      ((leaf a i D).drop (k * a.bb)).take (m * a.bb) := by
    show leaf a i ((D.drop (k * stripe a)).take (m * stripe a)) = _
    rw [leaf_take i.isLt _ _ (by rw [List.length_drop]; omega), leaf_drop]
  rw [this, stripeCalls]
  have h := absorbCalls_nonfinal (leaf a i D) ln m k hm (leaf_length i.isLt D (k + m) hk)
  rw [← h, List.drop_left' (leading_length _ _)]

theorem absorbCalls_leaf_final (i : Nat) (D : List Byte) (ln : Bool) (k : Nat)
    (hk : k = 0 ∨ k * stripe a + i * a.bb < D.length) :
    absorbCalls a .Parallel true ln (BitVec.ofNat _ (k * a.bb)) ((D.drop (k * stripe a)).drop (i * a.bb)) =
      (rfcCalls a (leaf a i D) ln).drop k := by
  rw [absorbCalls_gather]
  have : gather a (Stride.Parallel.padded a) (padded_pos a .Parallel) ((D.drop (k * stripe a)).drop (i * a.bb)) =
      (leaf a i D).drop (k * a.bb) := by
    rw [leaf_drop]; rfl
  rw [this]
  have h := absorbCalls_final (leaf a i D) ln _ k (Nat.le_refl _) (hk.imp id (fun h => leaf_lt i D k h))
  rw [← h, List.drop_left' (leading_length _ _)]

/-- The log of a batch of `m` stripes; nothing if there are none. -/
def stripeLog (a : Alg) (imp : Platform) (D : List Byte) (k m : Nat) : List (Pass a (Node a)) :=
  if m = 0 then [] else batchLog a imp (stripeCalls a D k m)

theorem stripeLog_pos (imp : Platform) (D : List Byte) (k : Nat) {m : Nat} (h : 0 < m) :
    stripeLog a imp D k m = batchLog a imp (stripeCalls a D k m) := if_neg (by omega)

theorem stripeLog_leaf (imp : Platform) (D : List Byte) (k m : Nat) (i : Fin (parDegree a)) :
    callsOf (some i) (stripeLog a imp D k m) = stripeCalls a D k m i := by
  unfold stripeLog
  split
  · rename_i h
    subst h
    have : (leading a (leaf a i D) (k + 0)).length = k := leading_length _ _
    rw [stripeCalls, List.drop_eq_nil_of_le (by omega)]
    rfl
  · exact batchLog_leaf _ _ _

theorem stripeLog_root (imp : Platform) (D : List Byte) (k m : Nat) : callsOf none (stripeLog a imp D k m) = [] := by
  unfold stripeLog
  split
  · rfl
  · exact batchLog_root _ _

theorem stripeLog_lanes (imp : Platform) (D : List Byte) (k m : Nat) :
    ∀ p ∈ stripeLog a imp D k m, (p.map Prod.fst).Nodup ∧ p.length ∈ widths a := by
  unfold stripeLog
  split
  · intro p hp; cases hp
  · exact batchLog_lanes _ _

/-! ## The state -/

namespace PState

theorem compressToLeavesT_eq {h0 : Fin (parDegree a) → Vector (Word a) 8} {D : List Byte} {k m : Nat} {s : PState a}
    (hl : ∀ i, s.leafWords[i] = chain a (h0 i) (leaf a i D) k) (hc : s.count = BitVec.ofNat _ (k * a.bb)) (hm : 0 < m)
    (hk : (k + m) * stripe a ≤ D.length) (x : List Byte) (hx : x = (D.drop (k * stripe a)).take (m * stripe a)) :
    ∃ s', compressToLeavesT s x = ret s' (stripeLog a s.implementation D k m) ∧
      (∀ i, s'.leafWords[i] = chain a (h0 i) (leaf a i D) (k + m)) ∧
      s'.count = BitVec.ofNat _ ((k + m) * a.bb) ∧ s'.buf = s.buf ∧ s'.bufLen = s.bufLen ∧ SameMeta s s' := by
  have e : (k + m) * stripe a = k * stripe a + m * stripe a := Nat.add_mul ..
  have hxl : x.length = m * stripe a := by rw [hx, List.length_take, List.length_drop]; omega
  have hsm : stripe a ≤ m * stripe a := Nat.le_mul_of_pos_left _ hm
  have hbb := bb_pos a
  have hlog : (batchLog a s.implementation fun i => absorbCalls a .Parallel false false s.count (x.drop (i.val * a.bb))) =
      stripeLog a s.implementation D k m := by
    rw [stripeLog_pos _ _ _ hm]
    congr 1
    funext i
    rw [hc, hx]
    exact absorbCalls_leaf_nonfinal i D false m k hm hk
  unfold compressToLeavesT
  rw [compressLeavesT_eq _ _ _ _ (fun i => (x.drop (i.val * a.bb), s.count, false))]
  · refine ⟨{ s with leafWords := Vector.ofFn fun i => absorb a .Parallel false false s.leafWords[i] s.count (x.drop (i.val * a.bb))
                     count := s.count + BitVec.ofNat (2 * a.w) (x.length / parDegree a) },
      (bind_ret (l' := []) rfl rfl).trans (by rw [List.append_nil, hlog]), ?_, ?_, rfl, rfl, ⟨rfl, rfl, rfl, rfl⟩⟩
    · intro i
      simp only [Fin.getElem_fin, Vector.getElem_ofFn]
      have := hl i
      simp only [Fin.getElem_fin] at this
      rw [this, hc, hx]
      exact absorb_leaf_nonfinal i.isLt (h0 i) D false m k hm hk
    · simp only
      rw [hc, hxl, ← BitVec.ofNat_add, stripe, ← Nat.mul_assoc, Nat.mul_comm m, Nat.mul_assoc, Nat.mul_div_cancel_left _ (deg_pos a),
        Nat.add_mul]
  · intro i
    have := off_le (a := a) i.isLt
    simp only [sliceFrom, bind, Except.bind]
    rw [if_pos (by omega)]
  · intro i
    have := off_le (a := a) i.isLt
    refine .inr ⟨?_, ?_⟩
    · intro h0
      have := congrArg List.length h0
      simp only [List.length_drop, List.length_nil] at this
      omega
    · simp only [List.length_drop, hxl]
      have e1 : m * stripe a = m * parDegree a * a.bb := (Nat.mul_assoc ..).symm
      rw [e1, ← Nat.sub_mul, Nat.mul_mod_left]
  · intro i
    simp only [hc]
    exact ofNat_mul_mod a k

/-- Stripes compressed out of the buffer when `n` bytes come in. -/
def due1 (a : Alg) (bufLen n : Nat) : Nat :=
  if 0 < bufLen ∧ 2 * stripe a < bufLen + n then
    if (parDegree a - 1) * a.bb < bufLen + n - 2 * stripe a then 2 else 1
  else 0

/-- What is left of `n` bytes of input after that. -/
def rest1 (a : Alg) (bufLen n : Nat) : Nat := if 0 < bufLen then n - (2 * stripe a - bufLen) else n

/-- Stripes compressed directly out of the input after that. -/
def due2 (a : Alg) (bufLen n : Nat) : Nat := (rest1 a bufLen n - ((parDegree a - 1) * a.bb + 1)) / stripe a

theorem updateBufferedT_eq {h0 : Fin (parDegree a) → Vector (Word a) 8} {D : List Byte} {k : Nat} {s : PState a}
    (h : Inv h0 D k s) (x : List Byte) :
    ∃ s' x', updateBufferedT s x = ret (s', x') (stripeLog a s.implementation (D ++ x) k (due1 a s.bufLen x.length)) ∧
      Mid h0 (D ++ x) (k + due1 a s.bufLen x.length) s' x' ∧ SameMeta s s' ∧ x'.length = rest1 a s.bufLen x.length := by
  have hst := stripe_pos a
  have hbl := h.bufLen
  have hle := h.le
  have hsm := h.small
  have hst2 := stripe_lt a
  have hpd : parDegree a * a.bb = stripe a := rfl
  have hdeg : (parDegree a - 1) * a.bb + a.bb = stripe a := by
    rw [← Nat.succ_mul, Nat.succ_eq_add_one, Nat.sub_add_cancel (deg_pos a), stripe]
  have hbb := bb_pos a
  have hDl : (D ++ x).length = D.length + x.length := List.length_append
  have hchain : ∀ i : Fin (parDegree a), s.leafWords[i] = chain a (h0 i) (leaf a i (D ++ x)) k := by
    intro i; rw [chain_leaf_append i.isLt _ _ _ _ hle]; exact h.leaves i
  have hdrop : (D ++ x).drop (k * stripe a) = D.drop (k * stripe a) ++ x := List.drop_append_of_le_length hle
  have hpos : k = 0 ∨ k * stripe a + (parDegree a - 1) * a.bb < (D ++ x).length := h.pos.imp id (by omega)
  have hnil : ∀ k, stripeLog a s.implementation (D ++ x) k 0 = [] := fun _ => rfl
  unfold updateBufferedT
  by_cases hp : s.bufLen > 0
  · rw [if_pos hp, lift_bind (fillBuf_eq s x hsm h.bufLength)]
    simp only
    by_cases he : x.drop (min (2 * stripe a - s.bufLen) x.length) = []
    · have hxl : x.length ≤ 2 * stripe a - s.bufLen := by
        have := congrArg List.length he
        rw [List.length_drop, List.length_nil] at this; omega
      have hdue : due1 a s.bufLen x.length = 0 := if_neg (by omega)
      rw [he, hdue, hnil]
      simp only [List.isEmpty_nil, Bool.not_true, Bool.false_eq_true, if_false]
      refine ⟨_, _, rfl, ⟨hchain, h.count, by rw [Nat.add_zero]; omega, ?_, hpos, ?_, ?_, .inr ⟨?_, by simp⟩⟩, ⟨rfl, rfl, rfl, rfl⟩, ?_⟩
      · simp only; omega
      · simp only [List.length_append, List.length_take, List.length_drop, h.bufLength]; omega
      · simp only [Nat.add_zero]
        rw [Nat.min_eq_right hxl, List.take_length, List.append_nil, hdrop, ← h.buf]
        rw [List.take_left']
        rw [List.length_append, List.length_take, h.bufLength]; omega
      · simp only [List.length_nil]; omega
      · rw [rest1, if_pos hp, List.length_nil]; omega
    · have hne : (x.drop (min (2 * stripe a - s.bufLen) x.length)).isEmpty = false := by simpa using he
      have hxl : 2 * stripe a - s.bufLen < x.length := by
        rcases Nat.lt_or_ge (2 * stripe a - s.bufLen) x.length with h1 | h1
        · exact h1
        · exact absurd (List.drop_eq_nil_of_le (by omega)) he
      rw [Nat.min_eq_left (by omega)] at hne ⊢
      have e0 : s.bufLen + (2 * stripe a - s.bufLen) = 2 * stripe a := by omega
      have e1 : s.buf.drop (2 * stripe a) = [] := List.drop_eq_nil_of_le (by rw [h.bufLength]; exact Nat.le_refl _)
      rw [e0, e1, List.append_nil]
      -- the full buffer is the next two stripes of the data
      have hbuf : s.buf.take s.bufLen ++ x.take (2 * stripe a - s.bufLen) =
          ((D ++ x).drop (k * stripe a)).take (2 * stripe a) := by
        rw [hdrop, ← h.buf, List.take_append, List.take_take, Nat.min_eq_right hsm, List.length_take, h.bufLength,
          Nat.min_eq_left hsm]
      have hrest : x.drop (2 * stripe a - s.bufLen) = (D ++ x).drop (k * stripe a + 2 * stripe a) := by
        rw [← List.drop_drop, hdrop, ← h.buf, List.drop_append,
          List.drop_eq_nil_of_le (as := s.buf.take s.bufLen) (by rw [List.length_take]; omega), List.nil_append,
          List.length_take, h.bufLength, Nat.min_eq_left hsm]
      have hk1 : (k + 1) * stripe a = k * stripe a + stripe a := by rw [Nat.add_mul, Nat.one_mul]
      have hk2 : (k + 2) * stripe a = k * stripe a + 2 * stripe a := Nat.add_mul ..
      rw [hbuf, hrest]
      rw [hrest] at hne
      simp only [hne, Bool.not_false, ↓reduceIte]
      have hrl : ((D ++ x).drop (k * stripe a + 2 * stripe a)).length = (D ++ x).length - (k * stripe a + 2 * stripe a) :=
        List.length_drop
      have hrx : ((D ++ x).drop (k * stripe a + 2 * stripe a)).length = rest1 a s.bufLen x.length := by
        rw [rest1, if_pos hp, hrl]; omega
      have hbl2 : (((D ++ x).drop (k * stripe a)).take (2 * stripe a)).length = 2 * stripe a := by
        rw [List.length_take, List.length_drop]; omega
      by_cases hbig : ((D ++ x).drop (k * stripe a + 2 * stripe a)).length > (parDegree a - 1) * a.bb
      · simp only [hbig, ↓reduceIte]
        have hdue : due1 a s.bufLen x.length = 2 := by
          rw [due1, if_pos ⟨hp, by omega⟩, if_pos (by omega)]
        obtain ⟨s', hs', hl', hc', hb', _, hm'⟩ := compressToLeavesT_eq (h0 := h0) (D := D ++ x) (k := k) (m := 2)
          (s := { s with buf := ((D ++ x).drop (k * stripe a)).take (2 * stripe a), bufLen := 2 * stripe a })
          hchain h.count (by omega) (by omega) _ rfl
        rw [hdue]
        refine ⟨{ s' with bufLen := 0 }, (D ++ x).drop (k * stripe a + 2 * stripe a), ?_,
          ⟨hl', hc', by omega, by simp, .inr (by omega), ?_, ?_, .inl rfl⟩, ⟨hm'.1, hm'.2, hm'.3, hm'.4⟩, hrx⟩
        · rw [bind_ret hs' (l' := []) rfl, List.append_nil]
        · simp only [hb']; exact hbl2
        · simp only [List.take_zero, List.nil_append, hk2]
      · simp only [hbig, ↓reduceIte]
        have hdue : due1 a s.bufLen x.length = 1 := by
          rw [due1, if_pos ⟨hp, by omega⟩, if_neg (by omega)]
        have hfront : sliceTo (((D ++ x).drop (k * stripe a)).take (2 * stripe a)) (parDegree a * a.bb) =
            .ok (((D ++ x).drop (k * stripe a)).take (1 * stripe a)) := by
          rw [sliceTo, if_pos (by rw [hbl2]; omega), List.take_take, Nat.min_eq_left (by omega), Nat.one_mul, hpd]
        obtain ⟨s', hs', hl', hc', hb', _, hm'⟩ := compressToLeavesT_eq (h0 := h0) (D := D ++ x) (k := k) (m := 1)
          (s := { s with buf := ((D ++ x).drop (k * stripe a)).take (2 * stripe a), bufLen := 2 * stripe a })
          hchain h.count (by omega) (by omega) _ rfl
        simp only at hb'
        have hback : sliceFrom (((D ++ x).drop (k * stripe a)).take (2 * stripe a)) (parDegree a * a.bb) =
            .ok (((D ++ x).drop (k * stripe a + stripe a)).take (stripe a)) := by
          rw [sliceFrom, if_pos (by rw [hbl2]; omega), List.drop_take, List.drop_drop]
          congr 2; omega
        have hfl : (((D ++ x).drop (k * stripe a)).take (1 * stripe a)).length = stripe a := by
          rw [List.length_take, List.length_drop]; omega
        have hfb : (((D ++ x).drop (k * stripe a + stripe a)).take (stripe a)).length = stripe a := by
          rw [List.length_take, List.length_drop]; omega
        have hcopy : copyRange (((D ++ x).drop (k * stripe a)).take (1 * stripe a)) 0
            (((D ++ x).drop (k * stripe a)).take (1 * stripe a)).length
            (((D ++ x).drop (k * stripe a + stripe a)).take (stripe a)) =
            .ok (((D ++ x).drop (k * stripe a + stripe a)).take (stripe a)) := by
          rw [copyRange, if_pos ⟨Nat.zero_le _, Nat.le_refl _, by rw [hfl, hfb]; omega⟩, List.take_zero, List.nil_append,
            List.drop_length, List.append_nil]
        have hmod : parDegree a * a.bb % 65536 = stripe a := Nat.mod_eq_of_lt (by omega)
        rw [hdue]
        refine ⟨{ s' with bufLen := stripe a,
                          buf := ((D ++ x).drop (k * stripe a + stripe a)).take (stripe a) ++
                            ((D ++ x).drop (k * stripe a + stripe a)).take (stripe a) },
          (D ++ x).drop (k * stripe a + 2 * stripe a), ?_,
          ⟨hl', hc', by omega, by simp only; omega, .inr (by omega), ?_, ?_, .inr ⟨?_, ?_⟩⟩,
          ⟨hm'.1, hm'.2, hm'.3, hm'.4⟩, hrx⟩
        · rw [lift_bind hfront, bind_ret hs' (l' := []) (by
            rw [hb', lift_bind hfront, lift_bind hback, lift_bind hcopy, hmod]; rfl), List.append_nil]
        · simp only [List.length_append, hfb]; omega
        · simp only
          rw [List.take_left' hfb, hk1]
          have : k * stripe a + 2 * stripe a = k * stripe a + stripe a + stripe a := by omega
          rw [this, ← List.drop_drop (j := k * stripe a + stripe a), List.take_append_drop]
        · simp only; omega
        · omega
  · rw [if_neg hp]
    have hz : s.bufLen = 0 := by omega
    have hdue : due1 a s.bufLen x.length = 0 := if_neg (by omega)
    rw [hdue, hnil]
    refine ⟨s, x, rfl, ⟨hchain, h.count, by rw [Nat.add_zero]; omega, h.small, hpos, h.bufLength, ?_, .inl hz⟩, .refl s, ?_⟩
    · rw [h.buf, Nat.add_zero, hdrop]
    · rw [rest1, if_neg hp]

theorem updateT_eq {h0 : Fin (parDegree a) → Vector (Word a) 8} {D : List Byte} {k : Nat} {s : PState a}
    (h : Inv h0 D k s) (x : List Byte) :
    ∃ s', updateT s x = ret s' (stripeLog a s.implementation (D ++ x) k (due1 a s.bufLen x.length) ++
        stripeLog a s.implementation (D ++ x) (k + due1 a s.bufLen x.length) (due2 a s.bufLen x.length)) ∧
      Inv h0 (D ++ x) (k + due1 a s.bufLen x.length + due2 a s.bufLen x.length) s' ∧ SameMeta s s' := by
  obtain ⟨s1, x1, e1, m1, sm1, hx1⟩ := updateBufferedT_eq h x
  have hst := stripe_pos a
  have hdeg : (parDegree a - 1) * a.bb + a.bb = stripe a := by
    rw [← Nat.succ_mul, Nat.succ_eq_add_one, Nat.sub_add_cancel (deg_pos a), stripe]
  have hbb := bb_pos a
  have hdue2 : due2 a s.bufLen x.length = (x1.length - ((parDegree a - 1) * a.bb + 1)) / stripe a := by rw [due2, hx1]
  rw [hdue2]
  generalize hk1 : k + due1 a s.bufLen x.length = k1 at *
  generalize hD' : D ++ x = D' at *
  have hbulk : ∃ s2 x2, updateBulkT s1 x1 = ret (s2, x2) (stripeLog a s.implementation D' k1
        ((x1.length - ((parDegree a - 1) * a.bb + 1)) / stripe a)) ∧
      Mid h0 D' (k1 + (x1.length - ((parDegree a - 1) * a.bb + 1)) / stripe a) s2 x2 ∧
      s2.bufLen + x2.length ≤ 2 * stripe a ∧ SameMeta s1 s2 := by
    unfold updateBulkT
    simp only
    generalize hr : x1.length - ((parDegree a - 1) * a.bb + 1) = r
    have hmod := Nat.mod_lt r hst
    have hdm := Nat.div_add_mod r (stripe a)
    have hbe : r - r % (parDegree a * a.bb) = r / stripe a * stripe a := by
      have : r % (parDegree a * a.bb) = r % stripe a := rfl
      rw [this, Nat.mul_comm]; omega
    rw [hbe]
    rw [Nat.mul_comm] at hdm
    by_cases hb : r / stripe a * stripe a > 0
    · rw [if_pos hb]
      have hz : s1.bufLen = 0 := by rcases m1.fits with h | h <;> omega
      have hx1 : x1 = D'.drop (k1 * stripe a) := by have := m1.buf; rw [hz] at this; simpa using this
      have hx1l : x1.length = D'.length - k1 * stripe a := by rw [hx1, List.length_drop]
      have hle1 := m1.le
      have hm : 0 < r / stripe a := by
        rcases Nat.eq_zero_or_pos (r / stripe a) with h0 | h0
        · rw [h0] at hb; omega
        · exact h0
      have hks : (k1 + r / stripe a) * stripe a = k1 * stripe a + r / stripe a * stripe a := Nat.add_mul ..
      obtain ⟨s', hs', hl', hc', hb', hbl', hm'⟩ := compressToLeavesT_eq (h0 := h0) (D := D') (k := k1) (m := r / stripe a)
          (s := s1) m1.leaves m1.count hm (by omega) (x1.take (r / stripe a * stripe a)) (by rw [← hx1])
      rw [sm1.implementation] at hs'
      refine ⟨s', x1.drop (r / stripe a * stripe a), ?_,
        ⟨hl', hc', by omega, by omega, .inr (by omega), ?_, ?_, .inl (by omega)⟩, ?_, hm'⟩
      · rw [lift_bind (x := x1.take (r / stripe a * stripe a)) (by rw [sliceTo, if_pos (by omega)]), bind_ret hs' (l' := []) (by
          rw [lift_bind (x := x1.drop (r / stripe a * stripe a)) (by rw [sliceFrom, if_pos (by omega)])]; rfl), List.append_nil]
      · rw [hb']; exact m1.bufLength
      · rw [hbl', hz, List.take_zero, List.nil_append, hks, hx1, List.drop_drop]
      · rw [hbl', hz, List.length_drop]; omega
    · rw [if_neg hb]
      have hz : r / stripe a = 0 := by
        rcases Nat.eq_zero_or_pos (r / stripe a) with h0 | h0
        · exact h0
        · exact absurd (Nat.mul_pos h0 hst) hb
      rw [hz]
      refine ⟨s1, x1, rfl, m1, ?_, .refl _⟩
      rw [hz] at hdm
      rcases m1.fits with h | h
      · omega
      · omega
  obtain ⟨s2, x2, e2, m2, hfit, sm2⟩ := hbulk
  unfold updateT
  have hmin : min (2 * stripe a - s2.bufLen) x2.length = x2.length := Nat.min_eq_right (by omega)
  have hsm2 := m2.small
  have hfill := fillBuf_eq s2 x2 m2.small m2.bufLength
  simp only [hmin, List.take_length, List.drop_length] at hfill
  have hlen := congrArg List.length m2.buf
  rw [List.length_append, List.length_take, List.length_drop, m2.bufLength] at hlen
  refine ⟨{ s2 with buf := s2.buf.take s2.bufLen ++ x2 ++ s2.buf.drop (s2.bufLen + x2.length), bufLen := s2.bufLen + x2.length },
    bind_ret e1 (bind_ret e2 (l' := []) ?_) |>.trans (by rw [List.append_nil]),
    ⟨m2.leaves, m2.count, m2.le, ?_, ?_, m2.pos, ?_, ?_⟩, ?_⟩
  · simp only
    rw [lift_bind hfill, lift_bind (x := ()) (by rfl)]
    rfl
  · simp only; omega
  · simp only; omega
  · simp only [List.length_append, List.length_take, List.length_drop, m2.bufLength]; omega
  · simp only
    rw [List.take_left' (by rw [List.length_append, List.length_take, m2.bufLength]; omega)]
    exact m2.buf
  · exact (sm1.trans sm2).trans ⟨rfl, rfl, rfl, rfl⟩

/-- `finalize`: the rest of the leaves' calls. -/
theorem finalizeLeavesT_eq {h0 : Fin (parDegree a) → Vector (Word a) 8} {D : List Byte} {k : Nat} {s : PState a}
    (h : Inv h0 D k s) :
    compressLeavesT (fun i => do
      let upTo ← sliceTo s.buf s.bufLen
      let input ← sliceFrom upTo (min (i.val * a.bb) s.bufLen)
      .ok (input, s.count, decide (i.val = parDegree a - 1))) s.implementation true s.leafWords =
    ret (Vector.ofFn fun i => process a (h0 i) (leaf a i D) (decide (i.val = parDegree a - 1)))
      (batchLog a s.implementation fun i => (rfcCalls a (leaf a i D) (decide (i.val = parDegree a - 1))).drop k) := by
  have hsm := h.small
  have hbl := h.bufLength
  have hpos : ∀ i : Fin (parDegree a), k = 0 ∨ k * stripe a + i.val * a.bb < D.length := by
    intro i
    refine h.pos.imp id (fun hp => ?_)
    have : i.val * a.bb ≤ (parDegree a - 1) * a.bb := Nat.mul_le_mul_right _ (by omega)
    omega
  rw [compressLeavesT_eq _ _ _ _
    (fun i => ((D.drop (k * stripe a)).drop (i.val * a.bb), s.count, decide (i.val = parDegree a - 1)))]
  · congr 1
    · apply Vector.ext
      intro i hi
      simp only [Vector.getElem_ofFn]
      have hl := h.leaves ⟨i, hi⟩
      rw [hl, h.count]
      exact absorb_leaf_final _ _ _ _ _ (hpos ⟨i, hi⟩)
    · congr 1
      funext i
      simp only
      rw [h.count]
      exact absorbCalls_leaf_final _ _ _ _ (hpos i)
  · intro i
    simp only [sliceTo, sliceFrom, bind, Except.bind]
    rw [if_pos (by omega)]
    simp only
    have hl : (s.buf.take s.bufLen).length = s.bufLen := by rw [List.length_take]; omega
    rw [if_pos (by omega), ← h.buf]
    simp only
    congr 2
    rcases Nat.le_total (i.val * a.bb) s.bufLen with h1 | h1
    · rw [Nat.min_eq_left h1]
    · rw [Nat.min_eq_right h1, List.drop_eq_nil_of_le (by omega), List.drop_eq_nil_of_le (by omega)]
  · intro i; exact .inl rfl
  · intro i
    simp only [h.count]
    exact ofNat_mul_mod a k

end PState

theorem finalizeRootWordsT_eq (leaves : LeafWords a) (root : Vector (Word a) 8) (hl : BitVec 8) (imp : Platform) :
    finalizeRootWordsT leaves root hl imp =
      ret { bytes := wordsToBytes a (process a root (leaves.toList.flatMap (wordsToBytes a)) true), len := hl }
        (solo none (rfcCalls a (leaves.toList.flatMap (wordsToBytes a)) true)) := by
  unfold finalizeRootWordsT
  have hblock : ((leaves.toList.flatMap fun words => words.toList).flatMap fun word => toLE a.wb word) =
      leaves.toList.flatMap (wordsToBytes a) := by
    rw [List.flatMap_assoc]
    congr 1
    funext w
    rw [wordsToBytes]
    congr 1
    funext x
    rw [toLE_eq]
  simp only [hblock]
  have := absorb_final root (leaves.toList.flatMap (wordsToBytes a)) true _ 0 (Nat.le_refl _) (.inl rfl)
  have hc := absorbCalls_final (a := a) (leaves.toList.flatMap (wordsToBytes a)) true _ 0 (Nat.le_refl _) (.inl rfl)
  simp only [Nat.zero_mul, List.drop_zero, chain_zero] at this
  simp only [Nat.zero_mul, List.drop_zero, leading_zero, List.nil_append] at hc
  have e0 : (BitVec.ofNat (2 * a.w) 0) = 0 := rfl
  rw [e0] at this hc
  have e1 := compress1T_eq none imp (leaves.toList.flatMap (wordsToBytes a)) root 0 true true .Serial
    (.inl rfl : InputOk a true _) (ι := Node a)
  rw [this, hc] at e1
  rw [bind_ret e1 (l' := []) rfl, List.append_nil, stateWordsToBytes_eq]

/-! ## Hashers with their ledger -/

/-- A tree hasher, how many blocks of every leaf have been compressed, and the platform. -/
structure Ledger where
  hasher : PHasher
  done : Nat
  plat : Platform

namespace Ledger

/-- The data of a hasher, with the key blocks. -/
def data (a : Alg) (l : Ledger) : List Byte := keyStripe a l.hasher.config.key ++ l.hasher.msg

def bufLen (a : Alg) (l : Ledger) : Nat := (l.data a).length - l.done * stripe a

def feed (a : Alg) (x : List Byte) (l : Ledger) : Ledger :=
  { l with hasher := l.hasher.feed x
           done := l.done + PState.due1 a (l.bufLen a) x.length + PState.due2 a (l.bufLen a) x.length }

/-- The log of an update. -/
def updLog (a : Alg) (x : List Byte) (l : Ledger) : List (Pass a (Node a)) :=
  stripeLog a l.plat (l.data a ++ x) l.done (PState.due1 a (l.bufLen a) x.length) ++
    stripeLog a l.plat (l.data a ++ x) (l.done + PState.due1 a (l.bufLen a) x.length) (PState.due2 a (l.bufLen a) x.length)

/-- The log of a finalization. -/
def finLog (a : Alg) (l : Ledger) : List (Pass a (Node a)) :=
  (batchLog a l.plat fun i => (l.hasher.calls a (some i)).drop l.done) ++ solo none (l.hasher.calls a none)

end Ledger

/-- A state, its hasher and its ledger. -/
structure LRel (a : Alg) (l : Ledger) (s : PState a) : Prop where
  inv : PState.Inv (fun i => initH a (leafConfig a l.hasher.config.hashLength l.hasher.config.key i)) (l.data a) l.done s
  rel : PHRel a l.hasher s
  plat : s.implementation = l.plat

theorem LRel.keyLe {l : Ledger} {s : PState a} (r : LRel a l s) : l.hasher.config.key.length ≤ maxOut a := r.rel.2.2.2.2.2.1

theorem LRel.create {c : PConfig} {p : PParams a} (h : PRep a c.hashLength c.key p) :
    ∃ s, p.toState = .ok s ∧ LRel a ⟨{ config := c, msg := [] }, 0, p.implementation⟩ s := by
  obtain ⟨s, e, h1, h2, h3, h4, h5⟩ := PState.withParams_inv h
  have h1' : PState.Inv (fun i => initH a (leafConfig a c.hashLength c.key i)) (keyStripe a c.key ++ []) 0 s := by
    rw [List.append_nil]; exact h1
  exact ⟨s, e, h1', ⟨⟨0, h1'⟩, h2, h3.trans h.hashLength, h5, h.le, h.keyLe, h.pos⟩, h4⟩

theorem LRel.update {l : Ledger} {s : PState a} (r : LRel a l s) (x : List Byte) :
    ∃ s', s.updateT x = ret s' (l.updLog a x) ∧ LRel a (l.feed a x) s' := by
  obtain ⟨s', e, hi, hm⟩ := PState.updateT_eq r.inv x
  rw [r.inv.bufLen, r.plat] at e
  rw [r.inv.bufLen] at hi
  refine ⟨s', e, ?_, ?_, hm.implementation.trans r.plat⟩
  · have hd : (l.feed a x).data a = l.data a ++ x := (List.append_assoc ..).symm
    rw [hd]
    exact hi
  · obtain ⟨_, h1, h2, h3, h4, h5, h6⟩ := r.rel
    have hd : keyStripe a (l.hasher.feed x).config.key ++ (l.hasher.feed x).msg = l.data a ++ x := (List.append_assoc ..).symm
    rw [← hd] at hi
    exact ⟨⟨_, hi⟩, hm.rootWords.trans h1, hm.hashLength.trans h2, hm.isKeyed.trans h3, h4, h5, h6⟩

theorem calls_leaf {h : PHasher} (hk : h.config.key.length ≤ maxOut a) (i : Fin (parDegree a)) :
    h.calls a (some i) = rfcCalls a (leaf a i (keyStripe a h.config.key ++ h.msg)) (decide (i.val = parDegree a - 1)) := by
  rw [leaf_keyed hk i.isLt, PHasher.calls, degree_eq]

theorem LRel.finalize {l : Ledger} {s : PState a} (r : LRel a l s) :
    s.finalizeT = ret { bytes := treeFull a l.hasher.config.hashLength l.hasher.config.key l.hasher.msg,
                        len := BitVec.ofNat 8 l.hasher.config.hashLength } (l.finLog a) := by
  obtain ⟨_, h1, h2, h3, h4, h5, h6⟩ := r.rel
  unfold PState.finalizeT
  rw [bind_ret (PState.finalizeLeavesT_eq r.inv) (finalizeRootWordsT_eq _ _ _ _), r.plat, h1, h2]
  unfold Ledger.finLog
  simp only [calls_leaf h5]
  unfold Ledger.data
  rw [leaves_flatMap h5]
  rfl

/-! ## The ledger is right -/

theorem leading_take (D : List Byte) (ln : Bool) (k : Nat) (h : k < numBlocks a D.length) :
    (rfcCalls a D ln).take k = leading a D k := by
  rw [rfcCalls_eq, List.take_append_of_le_length (by rw [leading_length]; omega)]
  unfold leading
  rw [← List.map_take, List.take_range, Nat.min_eq_left (by omega)]

theorem rfcCalls_length (D : List Byte) (ln : Bool) : (rfcCalls a D ln).length = numBlocks a D.length := by
  rw [rfcCalls_eq, List.length_append, leading_length]
  have : 0 < numBlocks a D.length := by
    have : 1 ≤ numBlocks a D.length := by unfold numBlocks; exact Nat.le_max_left ..
    omega
  simp only [List.length_cons, List.length_nil]; omega

theorem numBlocks_gt (D : List Byte) (k : Nat) (h : k = 0 ∨ k * a.bb < D.length) : k < numBlocks a D.length := by
  have hb := bb_pos a
  unfold numBlocks
  rw [bb_eq]
  rcases h with rfl | h
  · exact Nat.lt_of_lt_of_le Nat.one_pos (Nat.le_max_left ..)
  · refine Nat.lt_of_lt_of_le ?_ (Nat.le_max_right ..)
    rw [Nat.lt_div_iff_mul_lt hb]
    omega

theorem numBlocks_le (D : List Byte) (k : Nat) (hk : 0 < k) (h : D.length ≤ k * a.bb) : numBlocks a D.length ≤ k := by
  have hb := bb_pos a
  unfold numBlocks
  rw [bb_eq]
  refine Nat.max_le.2 ⟨hk, ?_⟩
  rw [Nat.div_le_iff_le_mul hb]
  omega

theorem gather_length_bound (P : Nat) (hP : 0 < P) (x : List Byte) (m : Nat) (h : x.length ≤ m * P) :
    (gather a P hP x).length ≤ m * a.bb := by
  induction m generalizing x with
  | zero =>
    have : x = [] := List.eq_nil_of_length_eq_zero (by omega)
    subst this
    rw [gather_nil]; simp
  | succ m ih =>
    rw [Nat.add_mul, Nat.one_mul] at h
    have := ih (x.drop P) (by rw [List.length_drop]; omega)
    rw [gather_unfold, List.length_append, List.length_take, Nat.add_mul m, Nat.one_mul]
    omega

theorem leaf_length_bound (i : Nat) (D : List Byte) (m : Nat) (h : D.length ≤ m * stripe a) : (leaf a i D).length ≤ m * a.bb :=
  gather_length_bound _ _ _ _ (by rw [List.length_drop]; omega)

/-- Neither ahead of time nor more than two calls behind. -/
theorem LRel.within {l : Ledger} {s : PState a} (r : LRel a l s) (i : Fin (parDegree a)) :
    l.done < (l.hasher.calls a (some i)).length ∧ (l.hasher.calls a (some i)).length ≤ l.done + 2 := by
  rw [calls_leaf r.keyLe, rfcCalls_length]
  have hs := r.inv.small
  rw [r.inv.bufLen] at hs
  refine ⟨numBlocks_gt _ _ (r.inv.pos.imp id fun hp => leaf_lt i _ _ ?_), numBlocks_le _ _ (by omega) (leaf_length_bound _ _ _ ?_)⟩
  · have : i.val * a.bb ≤ (parDegree a - 1) * a.bb := Nat.mul_le_mul_right _ (by omega)
    unfold Ledger.data at hp
    omega
  · unfold Ledger.data at hs
    rw [Nat.add_mul]; omega

theorem LRel.take_done {l : Ledger} {s : PState a} (r : LRel a l s) (i : Fin (parDegree a)) :
    (l.hasher.calls a (some i)).take l.done = leading a (leaf a i (l.data a)) l.done := by
  have h := (r.within i).1
  rw [calls_leaf r.keyLe, rfcCalls_length] at h
  rw [calls_leaf r.keyLe, leading_take _ _ _ h]
  rfl

theorem leading_leaf_append (i : Fin (parDegree a)) (D x : List Byte) (k : Nat) (h : k * stripe a ≤ D.length) :
    leading a (leaf a i (D ++ x)) k = leading a (leaf a i D) k := by
  have h' : k * stripe a ≤ (D ++ x).length := by rw [List.length_append]; omega
  have key : ∀ E : List Byte, k * a.bb ≤ E.length → leading a E k = leading a (E.take (k * a.bb)) k := by
    intro E hE
    have := leading_append (a := a) (E.take (k * a.bb)) (E.drop (k * a.bb)) k (by rw [List.length_take]; omega)
    rw [List.take_append_drop] at this
    exact this
  rw [key _ (leaf_length i.isLt D k h), key _ (leaf_length i.isLt (D ++ x) k h'), ← leaf_take i.isLt _ _ h,
    ← leaf_take i.isLt _ _ h', List.take_append_of_le_length h]

theorem leading_stripe (i : Fin (parDegree a)) (D : List Byte) (k m : Nat) :
    leading a (leaf a i D) k ++ stripeCalls a D k m i = leading a (leaf a i D) (k + m) := by
  unfold stripeCalls
  have : leading a (leaf a i D) k = (leading a (leaf a i D) (k + m)).take k := by
    unfold leading
    rw [← List.map_take, List.take_range, Nat.min_eq_left (by omega)]
  rw [this, List.take_append_drop]

theorem LRel.upd_leaf {l : Ledger} {s : PState a} (r : LRel a l s) (x : List Byte) (i : Fin (parDegree a)) :
    (l.hasher.calls a (some i)).take l.done ++ callsOf (some i) (l.updLog a x) =
      ((l.feed a x).hasher.calls a (some i)).take (l.feed a x).done := by
  obtain ⟨s', _, r'⟩ := r.update x
  have hd : (l.feed a x).data a = l.data a ++ x := (List.append_assoc ..).symm
  rw [r.take_done, r'.take_done, hd, ← leading_leaf_append i _ x _ r.inv.le]
  unfold Ledger.updLog
  rw [callsOf_eq_mine, Sched.mine_append, ← callsOf_eq_mine, ← callsOf_eq_mine, stripeLog_leaf, stripeLog_leaf,
    ← List.append_assoc, leading_stripe, leading_stripe]
  rfl

theorem LRel.upd_root {l : Ledger} (x : List Byte) : callsOf none (l.updLog a x) = [] := by
  unfold Ledger.updLog
  rw [callsOf_eq_mine, Sched.mine_append, ← callsOf_eq_mine, ← callsOf_eq_mine, stripeLog_root, stripeLog_root]
  rfl

theorem finLog_leaf (l : Ledger) (i : Fin (parDegree a)) :
    callsOf (some i) (l.finLog a) = (l.hasher.calls a (some i)).drop l.done := by
  unfold Ledger.finLog
  rw [callsOf_eq_mine, Sched.mine_append, ← callsOf_eq_mine, ← callsOf_eq_mine, batchLog_leaf, callsOf_solo_ne (i := some i) (j := none) (fun h => by cases h),
    List.append_nil]

theorem finLog_root (l : Ledger) : callsOf none (l.finLog a) = l.hasher.calls a none := by
  unfold Ledger.finLog
  rw [callsOf_eq_mine, Sched.mine_append, ← callsOf_eq_mine, ← callsOf_eq_mine, batchLog_root, callsOf_solo, List.nil_append]

theorem updLog_lanes (l : Ledger) (x : List Byte) :
    ∀ p ∈ l.updLog a x, (p.map Prod.fst).Nodup ∧ p.length ∈ widths a := by
  intro p hp
  rcases List.mem_append.1 hp with h | h <;> exact stripeLog_lanes _ _ _ _ p h

theorem finLog_lanes (l : Ledger) : ∀ p ∈ l.finLog a, (p.map Prod.fst).Nodup ∧ p.length ∈ widths a := by
  intro p hp
  rcases List.mem_append.1 hp with h | h
  · exact batchLog_lanes _ _ p h
  · have := solo_lanes _ _ p h
    refine ⟨by rw [this]; simp, ?_⟩
    have := congrArg List.length this
    rw [List.length_map] at this
    rw [this]; simp [widths]

end Blake2
