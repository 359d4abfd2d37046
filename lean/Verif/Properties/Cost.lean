import Verif.CostSpec
import Verif.Proofs.CostApi
import Verif.Proofs.LeakWorld
import Verif.Properties.World
/-!
# C74: hashing takes linear time

The time of a run is the number of entries in its log: every turn of every loop, every test, every bounds check and every position
touched makes an entry (`Verif/Model/Leak.lean`), and what happens between two entries is straight-line code on one block, one set of
lanes, or one buffer.
-/
namespace Blake2
open Spec

variable {a : Alg}

/-! ## Single calls -/

theorem getStateL_takes {S : Type} (ss : List S) (i : Nat) : Takes 1 (fun s => ss[i]? = some s) (getStateL ss i) := by
  refine (Takes.reveal _).bind (l := 0) fun _ _ => ?_
  split
  · rename_i e; exact .pure e
  · exact .fault _

theorem Rel.some {H S : Type} {R : H → S → Prop} {hs : List H} {ss : List S} (r : Rel R hs ss) {i : Nat} {s : S} (h : ss[i]? = some s) :
    ∃ t, hs[i]? = some t ∧ R t s := by
  obtain ⟨hi, e⟩ := List.getElem?_eq_some_iff.1 h
  have hi' : i < hs.length := by rw [← r.1]; exact hi
  exact ⟨hs[i], List.getElem?_eq_getElem hi', by rw [← e]; exact r.2 i hi' hi⟩

theorem Rep.full {c : Config} {p : Params a} (h : Rep a c p) : p.keyBlock.length = a.bb := by
  rw [h.keyBlock]
  refine pad_length _ _ ?_
  have := h.valid.2.2.1
  cases a
  · have : c.key.length ≤ 64 := this
    show c.key.length ≤ 128
    omega
  · have : c.key.length ≤ 32 := this
    show c.key.length ≤ 64
    omega

theorem PHRel.full {h : PHasher} {s : PState a} (r : PHRel a h s) : s.Full := by
  obtain ⟨⟨k, hk⟩, _⟩ := r
  have := hk.bufLength
  unfold PState.Full
  rw [this, stripe, Nat.mul_assoc]

theorem new_full (plat : Platform) : (Params.new a plat).keyBlock.length = a.bb := by
  cases a
  · exact List.length_replicate
  · exact List.length_replicate

theorem sum_le_mul {α : Type} (l : List α) (f g : α → Nat) (k : Nat) (h : ∀ x ∈ l, f x ≤ k * g x) : (l.map f).sum ≤ k * (l.map g).sum := by
  induction l with
  | nil => simp
  | cons x l ih =>
    rw [List.map_cons, List.map_cons, List.sum_cons, List.sum_cons, Nat.mul_add]
    exact Nat.add_le_add (h x (by simp)) (ih fun y hy => h y (by simp [hy]))

/-- The cost of an operation on states. -/
theorem op_takes {hs : List Hasher} {ss : List (State a)} (r : Rel (HRel a) hs ss) (dbg : Bool) (op : Op Platform) :
    TakesAny (700 * op.units a) (op.execL dbg ss) := by
  have full : ∀ {i : Nat} {s : State a}, ss[i]? = some s → s.buf.length = a.bb := fun h => by
    obtain ⟨t, _, ht⟩ := r.some h
    exact ht.sane.buf
  have up : ∀ i (x : List Byte), Takes (1 + (1241 + 608 * (x.length / a.bb))) (fun _ => True) (getStateL ss i >>= fun s => s.updateL x) := fun i x =>
    (getStateL_takes ss i).bind fun s hs => (State.updateL_takes (full hs) x).any
  cases op with
  | create plat calls =>
    refine Takes.up (k := 3 * calls.length + (1 + 0)) ?_ (by simp only [Op.units]; omega)
    exact (buildL_takes calls _ (new_full plat)).bind fun p hp => (State.withParamsL_takes p hp).bind fun _ _ => .pure trivial
  | clone i => exact ((getStateL_takes ss i).bind (l := 0) fun s _ => .pure trivial).up (by simp only [Op.units]; omega)
  | update i x =>
    refine Takes.up (k := 1 + ((1241 + 608 * (x.length / a.bb)) + 0)) ?_ (by
      simp only [Op.units, bb_eq]; generalize x.length / a.bb = q; omega)
    exact (getStateL_takes ss i).bind fun s hs => (State.updateL_takes (full hs) x).bind fun _ _ => .pure trivial
  | updateMany jobs =>
    have pick := Takes.mapList (xs := jobs) (cost := fun _ => 1) (P := fun (j : Nat × List Byte) (p : State a × List Byte) =>
      p.1.buf.length = a.bb ∧ p.2 = j.2) (f := fun j => do
      let s ← getStateL ss j.1
      pure (s, j.2)) fun j _ => (getStateL_takes ss j.1).bind (l := 0) fun s hs => .pure ⟨full hs, rfl⟩
    refine Takes.up (k := (jobs.map fun _ => 1).sum + ((11 + (jobs.map fun j => 1243 + 610 * (j.2.length / a.bb)).sum) + 0)) ?_ ?_
    · refine pick.bind fun pairs hp => Takes.bind (Q := fun _ => True) ((updateManyL_takes pairs fun p hmem => ?_).up ?_) fun out _ => .pure trivial
      · obtain ⟨k, hk, rfl⟩ := List.getElem_of_mem hmem
        exact (hp.2 k (by rw [← hp.1]; exact hk) hk).1
      · apply Nat.le_of_eq
        congr 2
        apply List.ext_getElem
        · simp [hp.1]
        · intro k h1 h2
          simp only [List.getElem_map]
          rw [(hp.2 k (by simpa using h2) (by simpa using h1)).2]
    · have h := sum_le_mul jobs (fun j => 1244 + 610 * (j.2.length / a.bb)) (fun j => 2 + j.2.length / bb a) 700 fun j _ => by
        rw [bb_eq]; generalize j.2.length / a.bb = q; omega
      have e : (jobs.map fun j => 1244 + 610 * (j.2.length / a.bb)).sum = (jobs.map fun _ => 1).sum +
          (jobs.map fun j => 1243 + 610 * (j.2.length / a.bb)).sum := by
        clear h pick
        induction jobs with
        | nil => rfl
        | cons j js ih => simp only [List.map_cons, List.sum_cons, ih]; omega
      simp only [Op.units]
      omega
  | write i x =>
    refine Takes.up (k := 1 + ((1241 + 608 * (x.length / a.bb)) + 0)) ?_ (by
      simp only [Op.units, bb_eq]; generalize x.length / a.bb = q; omega)
    exact (getStateL_takes ss i).bind fun s hs => (State.updateL_takes (full hs) x).bind fun _ _ => .pure trivial
  | flush i => exact ((getStateL_takes ss i).bind (l := 0) fun s _ => .pure trivial).up (by simp only [Op.units]; omega)
  | setLastNode i b => exact ((getStateL_takes ss i).bind (l := 0) fun s _ => .pure trivial).up (by simp only [Op.units]; omega)
  | finalize i =>
    refine Takes.up (k := 1 + (610 + (2 + 0))) ?_ (by simp only [Op.units]; omega)
    exact (getStateL_takes ss i).bind fun s hs => (State.finalizeL_takes (full hs)).bind fun h _ => (asBytesL_takes h).bind fun _ _ =>
      .pure trivial
  | count i =>
    refine Takes.up (k := 1 + (2 + 0)) ?_ (by simp only [Op.units]; omega)
    exact (getStateL_takes ss i).bind fun s hs => (State.getCountL_takes dbg s).bind fun _ _ => .pure trivial

/-- The cost of an operation on tree states. -/
theorem pop_takes {hs : List PHasher} {ss : List (PState a)} (r : Rel (PHRel a) hs ss) (dbg : Bool) (op : POp Platform) :
    TakesAny (700 * op.units a) (op.execL dbg ss) := by
  have full : ∀ {i : Nat} {s : PState a}, ss[i]? = some s → s.Full := fun h => by
    obtain ⟨t, _, ht⟩ := r.some h
    exact ht.full
  have hd : 4 ≤ parDegree a := by cases a <;> decide
  cases op with
  | create plat calls =>
    refine Takes.up (k := 3 * calls.length + (57 + 0)) ?_ (by simp only [POp.units, degree_eq]; omega)
    exact (PParams.buildL_takes calls _).bind fun p hp => (PState.withParamsL_takes p).bind fun _ _ => .pure trivial
  | clone i => exact ((getStateL_takes ss i).bind (l := 0) fun s _ => .pure trivial).up (by simp only [POp.units, degree_eq]; omega)
  | update i x =>
    refine Takes.up (k := 1 + ((216 + 2440 * parDegree a + 610 * (x.length / a.bb)) + 0)) ?_ (by
      simp only [POp.units, bb_eq, degree_eq]; generalize x.length / a.bb = q; omega)
    exact (getStateL_takes ss i).bind fun s hs => (PState.updateL_takes (full hs) x).bind fun _ _ => .pure trivial
  | write i x =>
    refine Takes.up (k := 1 + ((216 + 2440 * parDegree a + 610 * (x.length / a.bb)) + 0)) ?_ (by
      simp only [POp.units, bb_eq, degree_eq]; generalize x.length / a.bb = q; omega)
    exact (getStateL_takes ss i).bind fun s hs => (PState.updateL_takes (full hs) x).bind fun _ _ => .pure trivial
  | flush i => exact ((getStateL_takes ss i).bind (l := 0) fun s _ => .pure trivial).up (by simp only [POp.units, degree_eq]; omega)
  | finalize i =>
    refine Takes.up (k := 1 + ((2522 + 1830 * parDegree a) + (2 + 0))) ?_ (by simp only [POp.units, degree_eq]; omega)
    exact (getStateL_takes ss i).bind fun s hs => (PState.finalizeL_takes (full hs)).bind fun h _ => (asBytesL_takes h).bind fun _ _ =>
      .pure trivial
  | count i =>
    refine Takes.up (k := 1 + (2 + 0)) ?_ (by simp only [POp.units, degree_eq]; omega)
    exact (getStateL_takes ss i).bind fun s hs => (PState.getCountL_takes dbg s).bind fun _ _ => .pure trivial

/-! ## Calls that print -/

/-- At most `k` entries, and one for each character of the result. -/
def Prints {α : Type} (k : Nat) (μ : α → Nat) (m : Leaky α) : Prop :=
  m.log.length ≤ k + (match m.erase with | .ok v => μ v | .error _ => 0)

namespace Prints
variable {α β : Type} {k l : Nat} {P : α → Prop} {μ : α → Nat} {ν : β → Nat}

theorem up {m : Leaky α} (h : Prints k μ m) (hl : k ≤ l) : Prints l μ m := by
  unfold Prints at h ⊢
  omega

theorem after {m : Leaky α} {f : α → Leaky β} (h : Takes k P m) (hf : ∀ x, P x → Prints l ν (f x)) : Prints (k + l) ν (m >>= f) := by
  obtain ⟨lg, r⟩ := m
  have h0 : lg.length ≤ k := h.log
  cases r with
  | error e => exact Nat.le_trans h0 (by omega)
  | ok x =>
    have hx := hf x (h.res x rfl)
    show (lg ++ (f x).log).length ≤ k + l + (match (f x).erase with | .ok v => ν v | .error _ => 0)
    rw [List.length_append]
    unfold Prints at hx
    omega

theorem map {m : Leaky α} {g : α → β} (h : Prints k μ m) (hg : ∀ x, ν (g x) = μ x) : Prints k ν (m >>= fun x => pure (g x)) := by
  obtain ⟨lg, r⟩ := m
  cases r with
  | error e => exact h
  | ok x =>
    show (lg ++ []).length ≤ k + ν (g x)
    rw [List.append_nil, hg]
    exact h

theorem text (t : String) : Prints 0 String.length (revealText t >>= fun _ => pure t) := by
  show ((t.toList.map fun c : Char => Leak.arm c.toNat) ++ []).length ≤ 0 + t.length
  rw [List.append_nil, List.length_map, String.length_toList]
  omega

theorem textAnswer (m : Mem a) (t : String) :
    Prints 0 (fun r : Mem a × Answer => r.2.textLength) (revealText t >>= fun _ => pure (m, .text t)) := by
  show ((t.toList.map fun c : Char => Leak.arm c.toNat) ++ []).length ≤ 0 + t.length
  rw [List.append_nil, List.length_map, String.length_toList]
  omega

end Prints

theorem res_takes {α : Type} (r : Res α) : TakesAny 0 (⟨[], r⟩ : Leaky α) := ⟨Nat.le_refl _, fun _ _ => trivial⟩

/-- The cost of a call: of what it prints there are as many entries as characters; the rest is within the units. -/
theorem call_takes {w : World} {m : Mem a} (r : MemRel a w m) (dbg : Bool) (c : ApiCall Platform) :
    TakesAny (700 * c.units a w) (c.execL dbg m) ∨
    (c.units a w = 3 + (c.answer a w).textLength ∧ Prints 1100 (fun t => t.2.textLength) (c.execL dbg m)) := by
  obtain ⟨rp, rs, rj, rh, rt, ru⟩ := r
  have full : ∀ {i : Nat} {p : Params a}, m.params[i]? = some p → p.keyBlock.length = a.bb := fun h => by
    obtain ⟨t, _, ht⟩ := rp.some h
    exact ht.full
  have sfull : ∀ {i : Nat} {s : State a}, m.states[i]? = some s → s.buf.length = a.bb := fun h => by
    obtain ⟨t, _, ht⟩ := rs.some h
    exact ht.sane.buf
  have tfull : ∀ {i : Nat} {s : PState a}, m.treeStates[i]? = some s → s.Full := fun h => by
    obtain ⟨t, _, ht⟩ := ru.some h
    exact ht.full
  have hd : 4 ≤ parDegree a := by cases a <;> decide
  cases c with
  | newParams plat => exact .inl (.pure trivial)
  | cloneParams i =>
    exact .inl (((getStateL_takes _ i).bind (l := 0) fun s _ => .pure trivial).up (by simp only [ApiCall.units]; omega))
  | set i s =>
    refine .inl (Takes.up (k := 1 + (3 + 0)) ?_ (by simp only [ApiCall.units]; omega))
    exact (getStateL_takes _ i).bind fun p hp => (setter_takes s p (full hp)).bind fun _ _ => .pure trivial
  | forcePortable i =>
    exact .inl (((getStateL_takes _ i).bind (l := 0) fun s _ => .pure trivial).up (by simp only [ApiCall.units]; omega))
  | hash i x =>
    refine .inl (Takes.up (k := 1 + ((1853 + 608 * (x.length / a.bb)) + 0)) ?_ (by
      simp only [ApiCall.units, bb_eq]; generalize x.length / a.bb = q; omega))
    exact (getStateL_takes _ i).bind fun p hp => (hashL_takes (full hp) x).bind fun _ _ => .pure trivial
  | toState i =>
    refine .inl (Takes.up (k := 1 + (1 + 0)) ?_ (by simp only [ApiCall.units]; omega))
    exact (getStateL_takes _ i).bind fun p hp => (State.withParamsL_takes p (full hp)).bind fun _ _ => .pure trivial
  | debugParams i =>
    refine .inr ⟨rfl, Prints.up (Prints.after (getStateL_takes _ i) fun p hp => Prints.textAnswer m _) (by omega)⟩
  | oneShot plat x =>
    refine .inl (Takes.up (k := (1853 + 608 * (x.length / a.bb)) + 0) ?_ (by
      simp only [ApiCall.units, bb_eq]; generalize x.length / a.bb = q; omega))
    exact (hashL_takes (new_full plat) x).bind fun _ _ => .pure trivial
  | newState plat =>
    exact .inl (((State.withParamsL_takes _ (new_full plat)).bind (l := 0) fun _ _ => .pure trivial).up (by simp only [ApiCall.units]; omega))
  | onStates op => exact .inl (((op_takes rs dbg op).bind (l := 0) fun _ _ => .pure trivial).up (by simp only [ApiCall.units]; omega))
  | finalize i =>
    refine .inl (Takes.up (k := 1 + (610 + 0)) ?_ (by simp only [ApiCall.units]; omega))
    exact (getStateL_takes _ i).bind fun s hs => (State.finalizeL_takes (sfull hs)).bind fun h _ => .pure trivial
  | debugState i =>
    refine .inr ⟨rfl, Prints.up (Prints.after (l := 2) (getStateL_takes _ i) fun s hs => Prints.map (μ := String.length) ?_ fun _ => rfl) (by omega)⟩
    exact Prints.after (State.getCountL_takes dbg s) fun _ _ => Prints.after (res_takes _) fun t _ => Prints.text t
  | newJob i x =>
    refine .inl (Takes.up (k := 1 + (610 + 0)) ?_ (by simp only [ApiCall.units]; omega))
    exact (getStateL_takes _ i).bind fun p hp => (newL_takes (full hp) x).bind fun _ _ => .pure trivial
  | cloneJob i =>
    exact .inl (((getStateL_takes _ i).bind (l := 0) fun s _ => .pure trivial).up (by simp only [ApiCall.units]; omega))
  | hashMany is =>
    have pick := Takes.mapList (xs := is) (cost := fun _ => 1) (P := fun i (j : HashManyJob a) => m.jobs[i]? = some j)
      (f := getStateL m.jobs) fun i _ => getStateL_takes m.jobs i
    let q : Nat → Nat := fun i => (w.jobs[i]?.map fun t => t.msg.length / bb a).getD 0
    refine .inl (Takes.up (k := (is.map fun _ => 1).sum + ((11 + (is.map fun i => 616 + 610 * q i).sum) + 0)) ?_ ?_)
    · refine pick.bind fun jobs hp => Takes.bind (Q := fun _ => True) ((hashManyL_takes jobs).up ?_) fun out _ => .pure trivial
      apply Nat.le_of_eq
      congr 2
      apply List.ext_getElem
      · simp [hp.1]
      · intro k h1 h2
        simp only [List.getElem_map]
        obtain ⟨t, ht, hr⟩ := rj.some (hp.2 k (by simpa using h2) (by simpa using h1))
        simp only [q, ht, Option.map_some, Option.getD_some, hr.input, bb_eq]
    · have h := sum_le_mul is (fun i => 617 + 610 * q i) (fun i => 1 + q i) 700 fun j _ => by
        generalize q j = q; omega
      have e : (is.map fun i => 617 + 610 * q i).sum = (is.map fun _ => 1).sum + (is.map fun i => 616 + 610 * q i).sum := by
        clear h pick
        induction is with
        | nil => rfl
        | cons j js ih => simp only [List.map_cons, List.sum_cons, ih]; omega
      have hu : (ApiCall.hashMany (π := Platform) is).units a w = 3 + (is.map fun i => 1 + q i).sum := rfl
      rw [hu]
      omega
  | toHash i =>
    refine .inl (Takes.up (k := 1 + (1 + 0)) ?_ (by simp only [ApiCall.units]; omega))
    exact (getStateL_takes _ i).bind fun j _ => (toHashL_takes dbg j).bind fun _ _ => .pure trivial
  | debugJob i =>
    refine .inr ⟨rfl, Prints.up (Prints.after (getStateL_takes _ i) fun p hp => Prints.textAnswer m _) (by omega)⟩
  | ofArray d => exact .inl (.pure trivial)
  | asBytes i =>
    refine .inl (Takes.up (k := 1 + (2 + 0)) ?_ (by simp only [ApiCall.units]; omega))
    exact (getStateL_takes _ i).bind fun h _ => (asBytesL_takes h).bind fun _ _ => .pure trivial
  | asArray i =>
    refine .inl (Takes.up (k := 1 + (1 + 0)) ?_ (by simp only [ApiCall.units]; omega))
    refine (getStateL_takes _ i).bind fun h _ => Takes.bind (Q := fun _ => True) ?_ fun _ _ => .pure trivial
    exact .branch (k := 0) (fun _ => .fault _) fun _ => .pure trivial
  | toHex i =>
    refine .inl (Takes.up (k := 1 + (1022 + 0)) ?_ (by simp only [ApiCall.units]; omega))
    exact (getStateL_takes _ i).bind fun h _ => (toHexL_takes h).bind fun _ _ => .pure trivial
  | eqHash i j =>
    refine .inl (Takes.up (k := 1 + (1 + (516 + 0))) ?_ (by simp only [ApiCall.units]; omega))
    exact (getStateL_takes _ i).bind fun h _ => (getStateL_takes _ j).bind fun k _ => (eqHashL_takes h k).bind fun _ _ => .pure trivial
  | eqBytes i x =>
    refine .inl (Takes.up (k := 1 + (514 + 0)) ?_ (by simp only [ApiCall.units]; omega))
    exact (getStateL_takes _ i).bind fun h _ => (eqSliceL_takes h x).bind fun _ _ => .pure trivial
  | debugHash i =>
    refine .inr ⟨rfl, Prints.up (Prints.after (l := 1022) (getStateL_takes _ i) fun h hs => Prints.map (μ := String.length) ?_ fun _ => rfl) (by omega)⟩
    exact Prints.after (toHexL_takes h) fun hex _ => Prints.text _
  | newTree plat => exact .inl (.pure trivial)
  | cloneTree i =>
    exact .inl (((getStateL_takes _ i).bind (l := 0) fun s _ => .pure trivial).up (by simp only [ApiCall.units]; omega))
  | setTree i s =>
    refine .inl (Takes.up (k := 1 + (3 + 0)) ?_ (by simp only [ApiCall.units]; omega))
    exact (getStateL_takes _ i).bind fun p hp => (PParams.setter_takes s p).bind fun _ _ => .pure trivial
  | forcePortableTree i =>
    exact .inl (((getStateL_takes _ i).bind (l := 0) fun s _ => .pure trivial).up (by simp only [ApiCall.units]; omega))
  | hashTree i x =>
    refine .inl (Takes.up (k := 1 + ((2796 + 4270 * parDegree a + 610 * (x.length / a.bb)) + 0)) ?_ (by
      simp only [ApiCall.units, bb_eq, degree_eq]; generalize x.length / a.bb = q; omega))
    exact (getStateL_takes _ i).bind fun p hp => (phashL_takes p x).bind fun _ _ => .pure trivial
  | toTreeState i =>
    refine .inl (Takes.up (k := 1 + (57 + 0)) ?_ (by simp only [ApiCall.units, degree_eq]; omega))
    exact (getStateL_takes _ i).bind fun p hp => (PState.withParamsL_takes p).bind fun _ _ => .pure trivial
  | debugTree i =>
    refine .inr ⟨rfl, Prints.up (Prints.after (getStateL_takes _ i) fun p hp => Prints.textAnswer m _) (by omega)⟩
  | oneShotTree plat x =>
    refine .inl (Takes.up (k := (2796 + 4270 * parDegree a + 610 * (x.length / a.bb)) + 0) ?_ (by
      simp only [ApiCall.units, bb_eq, degree_eq]; generalize x.length / a.bb = q; omega))
    exact (phashL_takes _ x).bind fun _ _ => .pure trivial
  | newTreeState plat =>
    exact .inl (((PState.withParamsL_takes _).bind (l := 0) fun _ _ => .pure trivial).up (by simp only [ApiCall.units, degree_eq]; omega))
  | onTreeStates op => exact .inl (((pop_takes ru dbg op).bind (l := 0) fun _ _ => .pure trivial).up (by simp only [ApiCall.units]; omega))
  | finalizeTree i =>
    refine .inl (Takes.up (k := 1 + ((2522 + 1830 * parDegree a) + 0)) ?_ (by simp only [ApiCall.units, degree_eq]; omega))
    exact (getStateL_takes _ i).bind fun s hs => (PState.finalizeL_takes (tfull hs)).bind fun h _ => .pure trivial
  | debugTreeState i =>
    refine .inr ⟨rfl, Prints.up (Prints.after (l := 2) (getStateL_takes _ i) fun s hs => Prints.map (μ := String.length) ?_ fun _ => rfl) (by omega)⟩
    exact Prints.after (PState.getCountL_takes dbg s) fun _ _ => Prints.after (res_takes _) fun t _ => Prints.text t

/-- `C74_call` for a client described by `MemRel`. -/
theorem call_cost {w : World} {m : Mem a} (r : MemRel a w m) (dbg : Bool) (c : ApiCall Platform) (hw : c.WellTyped a w) :
    (c.execL dbg m).log.length ≤ 700 * c.units a w := by
  rcases call_takes r dbg c with h | ⟨hu, h⟩
  · exact h.log
  · unfold Prints at h
    rw [api_execL_erase] at h
    by_cases hp : c.Panics a dbg w
    · rw [apiCall_panics r dbg c hw hp] at h
      dsimp only at h
      omega
    · obtain ⟨m', e, _⟩ := apiCall_refines r dbg c hw hp
      rw [e] at h
      dsimp only at h
      omega

/-- C74, one call. After any program, a call makes at most 700 entries per unit: it takes time linear in the number of blocks it is given
and of characters it prints, whatever was done before. This holds also when it panics. Forgetting the entries gives the call itself. -/
theorem C74_call (dbg : Bool) (prog : List (ApiCall Platform)) (hv : World.ValidProgram a dbg {} prog)
    (c : ApiCall Platform) (hw : c.WellTyped a (World.after a {} prog)) :
    ∃ m os, ({} : Mem a).run dbg prog = .ok (m, os) ∧ (c.execL dbg m).erase = c.exec dbg m ∧
      (c.execL dbg m).log.length ≤ 700 * c.units a (World.after a {} prog) := by
  obtain ⟨m, e, r⟩ := run_refines (a := a) memRel_empty dbg prog hv
  exact ⟨m, _, e, api_execL_erase dbg m c, call_cost r dbg c hw⟩

/-- C74, whole programs. A program over the whole API takes time linear in its size: at most 700 entries for each block of a message, and
for each of a fixed number of further units per call and per item of a batch. No contents of messages, no way of dividing them over calls,
no composition of a batch and no sequence of calls makes it slower. -/
theorem C74_programs (dbg : Bool) (prog : List (ApiCall Platform)) (hv : World.WellTypedProgram a dbg {} prog) :
    (({} : Mem a).runL dbg prog).erase = ({} : Mem a).run dbg prog ∧
      (({} : Mem a).runL dbg prog).log.length ≤ 700 * World.units a {} prog := by
  refine ⟨runL_erase dbg prog {}, ?_⟩
  suffices h : ∀ (prog : List (ApiCall Platform)) (w : World) (m : Mem a), MemRel a w m → World.WellTypedProgram a dbg w prog →
      (m.runL dbg prog).log.length ≤ 700 * World.units a w prog from h prog {} {} memRel_empty hv
  intro prog
  induction prog with
  | nil => exact fun _ _ _ _ => Nat.zero_le _
  | cons c cs ih =>
    intro w m r hv
    have hc := call_cost r dbg c hv.1
    have hu : World.units a w (c :: cs) = c.units a w + World.units a (c.next a w) cs := rfl
    rw [hu]
    by_cases hp : c.Panics a dbg w
    · have e := apiCall_panics r dbg c hv.1 hp
      rw [← api_execL_erase] at e
      have : (m.runL dbg (c :: cs)).log = (c.execL dbg m).log := by
        show (Leaky.bind _ _).log = _
        unfold Leaky.bind
        rw [e]
      rw [this]
      omega
    · obtain ⟨m', e, r'⟩ := apiCall_refines r dbg c hv.1 hp
      rw [← api_execL_erase] at e
      have hr := ih _ m' r' (hv.2 hp)
      have : (m.runL dbg (c :: cs)).log.length ≤ (c.execL dbg m).log.length + (m'.runL dbg cs).log.length := by
        show (Leaky.bind _ _).log.length ≤ _
        unfold Leaky.bind
        rw [e]
        show ((c.execL dbg m).log ++ (Leaky.bind (m'.runL dbg cs) _).log).length ≤ _
        rw [List.length_append]
        unfold Leaky.bind
        split
        · show _ + ((m'.runL dbg cs).log ++ []).length ≤ _
          rw [List.append_nil]
          omega
        · exact Nat.le_refl _
      omega

theorem div_add_le (x y p : Nat) : x / p + y / p ≤ (x + y) / p := by
  rcases Nat.eq_zero_or_pos p with rfl | hp
  · simp
  · rw [Nat.le_div_iff_mul_le hp, Nat.add_mul]
    exact Nat.add_le_add (Nat.div_mul_le_self x p) (Nat.div_mul_le_self y p)

theorem pieces_units (dbg : Bool) (pieces : List (List Byte)) (w : World) (hw : w.states.length = 1) :
    World.WellTypedProgram a dbg w (pieces.map (fun x => (.onStates (.update 0 x) : ApiCall Platform)) ++ [.finalize 0]) ∧
    World.units a w (pieces.map (fun x => (.onStates (.update 0 x) : ApiCall Platform)) ++ [.finalize 0]) ≤
      3 * (pieces.length + 1) + pieces.flatten.length / bb a := by
  induction pieces generalizing w with
  | nil =>
    refine ⟨⟨by show 0 < w.states.length; omega, fun _ => trivial⟩, ?_⟩
    show 3 + 0 + 0 ≤ _
    simp
  | cons x xs ih =>
    have hn : ((.onStates (.update 0 x) : ApiCall Platform).next a w).states.length = 1 := by
      simp [ApiCall.next, Op.next, hw]
    obtain ⟨h1, h2⟩ := ih _ hn
    refine ⟨⟨by show 0 < w.states.length; omega, fun _ => h1⟩, ?_⟩
    show (3 + x.length / bb a) + World.units a ((.onStates (.update 0 x) : ApiCall Platform).next a w) (xs.map _ ++ _) ≤ _
    have := div_add_le x.length xs.flatten.length (bb a)
    rw [List.flatten_cons, List.length_append, List.length_cons]
    omega

/-- C74, incremental hashing. Giving a message in `n` pieces costs no more than a unit per block of the whole message and three for each
piece: the work on a piece does not depend on what was hashed before it. -/
theorem C74_pieces (plat : Platform) (dbg : Bool) (pieces : List (List Byte)) :
    (({} : Mem a).runL dbg (.newState plat :: pieces.map (fun x => .onStates (.update 0 x)) ++ [.finalize 0])).log.length ≤
      700 * (3 * (pieces.length + 2) + pieces.flatten.length / bb a) := by
  obtain ⟨h1, h2⟩ := pieces_units (a := a) dbg pieces ((.newState plat : ApiCall Platform).next a {}) rfl
  have hv : World.WellTypedProgram a dbg {}
      ((.newState plat : ApiCall Platform) :: pieces.map (fun x => .onStates (.update 0 x)) ++ [.finalize 0]) := And.intro trivial fun _ => h1
  refine Nat.le_trans (C74_programs dbg _ hv).2 ?_
  refine Nat.mul_le_mul_left 700 ?_
  show 3 + World.units a ((.newState plat : ApiCall Platform).next a {}) (pieces.map _ ++ _) ≤ _
  omega

/-! ## The hypotheses are met, and the measure counts -/

example : ∃ m os, ({} : Mem .b).run true sampleProgram = .ok (m, os) ∧
    ((ApiCall.oneShot Platform.AVX2 (List.replicate 1000 7)).execL true m).log.length ≤ 7000 := by
  obtain ⟨m, os, e, _, h⟩ := C74_call (a := .b) true sampleProgram (by decide +kernel) (.oneShot .AVX2 (List.replicate 1000 7)) trivial
  refine ⟨m, os, e, Nat.le_trans h ?_⟩
  simp only [ApiCall.units, List.length_replicate]
  decide

example : World.WellTypedProgram .b true {} sampleProgram ∧ World.units .b {} sampleProgram < 1000 := by decide +kernel

/-- Programs that panic are covered. -/
example : World.WellTypedProgram .s true {} [ApiCall.newParams Platform.AVX2, .newJob 0 [1], .toHash 0, .debugState 7] := by decide +kernel

/-- The measure counts the work: more blocks, more entries. -/
example : ((Params.new .s .Portable).hashL (List.replicate 10 7)).log.length + 4 * 497 =
    ((Params.new .s .Portable).hashL (List.replicate 300 7)).log.length := by decide +kernel

end Blake2
