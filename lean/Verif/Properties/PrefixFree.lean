import Verif.Properties.Collisions
import Verif.Properties.TraceTree
/-!
# No length extension (C60)

A digest is the output of a compression. If that output, or anything computed from it, were a chaining value in the hash of a
longer message, a digest could be extended without knowing the message. The theorems say that the compressions run for one
message are never the beginning of those run for another, and that the compressions flagged as final are run by `finalize` and
nowhere else.
-/
namespace Blake2
open Spec

variable {a : Alg}

theorem flag_true_ne : Spec.flag a true ≠ 0 := by cases a <;> decide

theorem flag_inj {f g : Bool} (h : Spec.flag a f = Spec.flag a g) : f = g := by
  have hne := flag_true_ne (a := a)
  cases f <;> cases g
  · rfl
  · exact absurd h.symm hne
  · exact absurd h hne
  · rfl

theorem rfcCalls_injective {x y : List Byte} {l l' : Bool} (h : rfcCalls a x l = rfcCalls a y l') : x = y ∧ l = l' := by
  refine frames_injective (a := a) ?_
  have hlt : ∀ (z : List Byte) (m : Bool), ∀ fr ∈ frames a z m, fr.counter < 2 ^ (2 * a.w) := by
    intro z m fr hfr
    unfold frames at hfr
    simp only [List.mem_append, List.mem_map, List.mem_singleton] at hfr
    rcases hfr with ⟨i, _, rfl⟩ | rfl
    · exact Nat.mod_lt _ (Nat.two_pow_pos _)
    · exact Nat.mod_lt _ (Nat.two_pow_pos _)
  have key : ∀ (l l' : List Frame), (∀ fr ∈ l, fr.counter < 2 ^ (2 * a.w)) → (∀ fr ∈ l', fr.counter < 2 ^ (2 * a.w)) →
      l.map (callOf a) = l'.map (callOf a) → l = l' := by
    intro l
    induction l with
    | nil => intro l' _ _ h; exact (List.map_eq_nil_iff.1 h.symm).symm
    | cons fr l ih =>
      intro l' h1 h2 h
      cases l' with
      | nil => cases h
      | cons fr' l' =>
        simp only [List.map_cons, List.cons.injEq] at h
        rw [ih l' (fun f hf => h1 f (by simp [hf])) (fun f hf => h2 f (by simp [hf])) h.2]
        have hc := h.1
        simp only [callOf, Call.mk.injEq] at hc
        have hn : fr.counter = fr'.counter := by
          have := congrArg BitVec.toNat hc.2.1
          rw [BitVec.toNat_ofNat, BitVec.toNat_ofNat, Nat.mod_eq_of_lt (h1 fr (by simp)),
            Nat.mod_eq_of_lt (h2 fr' (by simp))] at this
          exact this
        obtain ⟨b, c, f, g⟩ := fr
        obtain ⟨b', c', f', g'⟩ := fr'
        simp only at hc hn
        rw [hc.1, hn, flag_inj hc.2.2.1, flag_inj hc.2.2.2]
  exact key _ _ (hlt x l) (hlt y l') h

theorem leading_unflagged {D : List Byte} {k : Nat} : ∀ c ∈ leading a D k, c.lastBlock = 0 := by
  intro c hc
  obtain ⟨i, _, rfl⟩ := List.mem_map.1 hc
  rfl

/-- All calls but the last are unflagged. -/
theorem rfcCalls_unflagged {D : List Byte} {ln : Bool} : ∀ c ∈ (rfcCalls a D ln).dropLast, c.lastBlock = 0 := by
  rw [rfcCalls_dropLast]
  exact leading_unflagged

theorem rfcCalls_split (D : List Byte) (ln : Bool) :
    ∃ c, rfcCalls a D ln = (rfcCalls a D ln).dropLast ++ [c] ∧ c.lastBlock = Spec.flag a true := by
  rw [rfcCalls_dropLast, rfcCalls_eq]
  exact ⟨_, rfl, rfl⟩

theorem rfcCalls_prefix {x y : List Byte} {l l' : Bool} (h : rfcCalls a x l <+: rfcCalls a y l') : x = y ∧ l = l' := by
  refine rfcCalls_injective (a := a) ?_
  obtain ⟨t, ht⟩ := h
  cases t with
  | nil => rw [← ht, List.append_nil]
  | cons c t =>
    exfalso
    obtain ⟨z, hz, hf⟩ := rfcCalls_split (a := a) x l
    have hmem : z ∈ (rfcCalls a y l').dropLast := by
      rw [← ht, List.dropLast_append_of_ne_nil (by simp), hz]
      simp
    exact flag_true_ne (a := a) (hf.symm.trans (rfcCalls_unflagged z hmem))

/-- **C60.** With keys of the same length (the length is part of the parameter block), the compressions run to hash `x` are
never the beginning of those run to hash another message, or the same with another key or last-node flag. -/
theorem C60_prefix_free (plat plat' : Platform) (calls calls' : List Setter) (p p' : Params a)
    (hb : (Params.new a plat).build calls = .ok p) (hb' : (Params.new a plat').build calls' = .ok p')
    (hk : (configOf a calls).key.length = (configOf a calls').key.length) (x y : List Byte) :
    ∃ h log h' log', (p.hashT () x).run = .ok (h, log) ∧ (p'.hashT () y).run = .ok (h', log') ∧
      (log <+: log' → (configOf a calls).key = (configOf a calls').key ∧
        (configOf a calls).lastNode = (configOf a calls').lastNode ∧ x = y) := by
  obtain ⟨h, log, e, hl⟩ := C48_hash plat calls p hb x
  obtain ⟨h', log', e', hl'⟩ := C48_hash plat' calls' p' hb' y
  refine ⟨h, log, h', log', e, e', fun hp => ?_⟩
  obtain ⟨r, _⟩ := built_rep hb
  rw [hl, hl'] at hp
  have hinj : ∀ c d : Call a, ([((), c)] : Pass a Unit) = [((), d)] → c = d := by
    intro c d h
    simp only [List.cons.injEq, Prod.mk.injEq, true_and, and_true] at h
    exact h
  have hp' : rfcCalls a (keyedData a (configOf a calls).key x) (configOf a calls).lastNode <+:
      rfcCalls a (keyedData a (configOf a calls').key y) (configOf a calls').lastNode := by
    obtain ⟨t, ht⟩ := hp
    obtain ⟨l₁, l₂, h1, h2, _⟩ := List.map_eq_append_iff.1 ht.symm
    refine ⟨l₂, ?_⟩
    rw [h1]
    congr 1
    exact ((List.map_inj_right (fun c d => hinj c d)).1 h2).symm
  obtain ⟨e1, e2⟩ := rfcCalls_prefix hp'
  obtain ⟨e3, e4⟩ := keyedData_inj r.valid.2.2.1 hk e1
  exact ⟨e3, e2, e4⟩

/-- A message of two blocks and one of three which begins with it. -/
example : ∃ h log h' log', ((Params.new .b .AVX2).hashT () (List.replicate 256 7)).run = .ok (h, log) ∧
    ((Params.new .b .AVX2).hashT () (List.replicate 300 7)).run = .ok (h', log') ∧ ¬ log <+: log' ∧ ¬ log' <+: log := by
  obtain ⟨h, log, h', log', e, e', hp⟩ := C60_prefix_free (a := .b) .AVX2 .AVX2 [] [] _ _ rfl rfl rfl
    (List.replicate 256 7) (List.replicate 300 7)
  obtain ⟨h2, log2, h2', log2', f, f', hp'⟩ := C60_prefix_free (a := .b) .AVX2 .AVX2 [] [] _ _ rfl rfl rfl
    (List.replicate 300 7) (List.replicate 256 7)
  have g := e.symm.trans f'
  have g' := e'.symm.trans f
  cases g
  cases g'
  refine ⟨h, log, h', log', e, e', fun hl => ?_, fun hl => ?_⟩
  · exact absurd (congrArg List.length (hp hl).2.2) (by rw [List.length_replicate, List.length_replicate]; decide)
  · exact absurd (congrArg List.length (hp' hl).2.2) (by rw [List.length_replicate, List.length_replicate]; decide)

/-- **C60**, trees. It is enough to look at the leaves. -/
theorem C60_tree_prefix_free (plat plat' : Platform) (calls calls' : List PSetter) (p p' : PParams a)
    (hb : (PParams.new a plat).build calls = .ok p) (hb' : (PParams.new a plat').build calls' = .ok p')
    (hk : (pconfigOf a calls).key.length = (pconfigOf a calls').key.length) (x y : List Byte) :
    ∃ h log h' log', (p.hashT x).run = .ok (h, log) ∧ (p'.hashT y).run = .ok (h', log') ∧
      ((∀ leaf, callsOf (some leaf) log <+: callsOf (some leaf) log') →
        (pconfigOf a calls).key = (pconfigOf a calls').key ∧ x = y) := by
  obtain ⟨h, log, e, hl, _⟩ := C48_tree_hash plat calls p hb x
  obtain ⟨h', log', e', hl', _⟩ := C48_tree_hash plat' calls' p' hb' y
  refine ⟨h, log, h', log', e, e', fun hp => ?_⟩
  obtain ⟨r, _⟩ := pbuilt_rep hb
  have hall : ∀ i : Fin (parDegree a), (pconfigOf a calls).key = (pconfigOf a calls').key ∧
      leafMsg a x i = leafMsg a y i := by
    intro i
    have := hp i
    rw [hl, hl'] at this
    exact keyedData_inj r.keyLe hk (rfcCalls_prefix this).1
  have hdeg : degree a = parDegree a := by cases a <;> rfl
  refine ⟨(hall ⟨0, by cases a <;> decide⟩).1, C39_injective (a := a) x y fun i hi => ?_⟩
  exact (hall ⟨i, by omega⟩).2

/-- Appending a byte to a message changes what some leaf begins with, whatever the leaf lengths are. -/
example (x : List Byte) : ∃ h log h' log', ((PParams.new .s .SSE41).hashT x).run = .ok (h, log) ∧
    ((PParams.new .s .SSE41).hashT (x ++ [1])).run = .ok (h', log') ∧
    ∃ leaf, ¬ callsOf (some leaf) log <+: callsOf (some leaf) log' := by
  obtain ⟨h, log, h', log', e, e', hp⟩ := C60_tree_prefix_free (a := .s) .SSE41 .SSE41 [] [] _ _ rfl rfl rfl x (x ++ [1])
  refine ⟨h, log, h', log', e, e', Classical.byContradiction fun hn => ?_⟩
  have := hp fun leaf => Classical.byContradiction fun hl => hn ⟨leaf, hl⟩
  exact absurd (congrArg List.length this.2) (by simp)

/-- A call in a pass of the log is one of its owner's. -/
theorem mem_callsOf {ι : Type} [DecidableEq ι] {who : ι} {c : Call a} {log : List (Pass a ι)} {q : Pass a ι} (hq : q ∈ log)
    (hc : (who, c) ∈ q) : c ∈ callsOf who log := by
  unfold callsOf
  rw [List.mem_filterMap]
  exact ⟨(who, c), List.mem_flatten.2 ⟨q, hq, hc⟩, by simp⟩

theorem next_length_le (hs : List Hasher) (op : Op Platform) : hs.length ≤ (op.next a hs).length := by
  cases op <;> simp only [Op.next, List.length_append, List.length_modify] <;> try omega
  case updateMany jobs =>
    induction jobs generalizing hs with
    | nil => simp
    | cons j jobs ih =>
      rw [List.foldl_cons]
      exact Nat.le_trans (by rw [List.length_modify]; exact Nat.le_refl _) (ih _)

/-- Is the operation a `finalize`? -/
def Spec.Op.isFinalize {π : Type} : Op π → Bool
  | .finalize _ => true
  | _ => false

theorem logs_flags {hs : List Hasher} {op : Op Platform} {log : List (Pass a Nat)} (h : op.Logs a hs log) :
    ∀ q ∈ log, ∀ c ∈ q, c.2.lastBlock = Spec.flag a op.isFinalize := by
  intro q hq c hc
  obtain ⟨who, c⟩ := c
  have hlt := (h.2 q hq).2 _ hc
  have hlt' := Nat.lt_of_lt_of_le hlt (next_length_le (a := a) hs op)
  have hm := mem_callsOf hq hc
  have := h.1 who _ _ (List.getElem?_eq_getElem hlt) (List.getElem?_eq_getElem hlt')
  have other : ∀ l : Hasher, (hs[who].calls a).dropLast ++ callsOf who log = (l.calls a).dropLast → c.lastBlock = 0 := by
    intro l hl
    refine rfcCalls_unflagged (a := a) c (?_ : c ∈ (l.calls a).dropLast)
    rw [← hl]
    exact List.mem_append_right _ hm
  cases op with
  | finalize j =>
    simp only at this
    split at this
    · obtain ⟨z, hz, hf⟩ := rfcCalls_split (a := a) (keyedData a hs[who].config.key hs[who].msg) hs[who].config.lastNode
      have e := this.trans hz
      have e' := List.append_cancel_left e
      rw [e'] at hm
      rw [List.mem_singleton.1 hm]
      exact hf
    · have e := List.append_cancel_left (this.trans (List.append_nil _).symm)
      rw [e] at hm
      cases hm
  | create _ _ => exact other _ this
  | clone _ => exact other _ this
  | update _ _ => exact other _ this
  | updateMany _ => exact other _ this
  | write _ _ => exact other _ this
  | flush _ => exact other _ this
  | setLastNode _ _ => exact other _ this
  | count _ => exact other _ this

/-- **C60**, incremental. In any history the compressions run by `finalize`, and no others, are flagged as final. -/
theorem C60_histories (dbg : Bool) (ops : List (Op Platform)) (hv : ValidHistory a dbg [] ops) :
    ∃ ss logs, execAllT dbg ([] : List (State a)) ops = .ok (ss, (answers a [] ops).zip logs) ∧ logs.length = ops.length ∧
      ∀ (k : Nat) op log, ops[k]? = some op → logs[k]? = some log →
        ∀ pass ∈ log, ∀ c ∈ pass,
          (c.2.lastBlock = BitVec.allOnes a.w ∧ ∃ i, op = .finalize i) ∨ (c.2.lastBlock = 0 ∧ ∀ i, op ≠ .finalize i) := by
  obtain ⟨ss, logs, e, hl, _⟩ := C48_histories dbg ops hv
  refine ⟨ss, logs, e, ?_⟩
  clear e hv
  have key : ∀ (ops : List (Op Platform)) (hs : List Hasher) (logs : List (List (Pass a Nat))), LogsHistory a hs ops logs →
      logs.length = ops.length ∧ ∀ (k : Nat) op log, ops[k]? = some op → logs[k]? = some log →
        ∀ pass ∈ log, ∀ c ∈ pass, c.2.lastBlock = Spec.flag a op.isFinalize := by
    intro ops
    induction ops with
    | nil =>
      intro hs logs h
      cases logs with
      | nil => exact ⟨rfl, fun k op log h => by simp at h⟩
      | cons _ _ => exact h.elim
    | cons op ops ih =>
      intro hs logs h
      cases logs with
      | nil => exact h.elim
      | cons log logs =>
        obtain ⟨h1, h2⟩ := h
        obtain ⟨h3, h4⟩ := ih _ _ h2
        refine ⟨by simp [h3], fun k op' log' e e' => ?_⟩
        cases k with
        | zero =>
          simp only [List.getElem?_cons_zero, Option.some.injEq] at e e'
          subst e
          subst e'
          exact logs_flags h1
        | succ k => exact h4 k op' log' (by simpa using e) (by simpa using e')
  obtain ⟨h1, h2⟩ := key ops [] logs hl
  refine ⟨h1, fun k op log e e' pass hp c hc => ?_⟩
  rw [h2 k op log e e' pass hp c hc]
  cases op <;> simp [Op.isFinalize, Spec.flag]

/-- In the sample history something is finalized, and compressed elsewhere too. -/
example : ∃ ss logs, execAllT true ([] : List (State .b)) sampleHistory = .ok (ss, (answers .b [] sampleHistory).zip logs) ∧
    ∀ (k : Nat) i log, sampleHistory[k]? = some (.finalize i) → logs[k]? = some log →
      ∀ pass ∈ log, ∀ c ∈ pass, c.2.lastBlock = BitVec.allOnes 64 := by
  obtain ⟨ss, logs, e, _, h⟩ := C60_histories (a := .b) true _ sampleHistory_valid
  refine ⟨ss, logs, e, fun k i log h1 h2 pass hp c hc => ?_⟩
  rcases h k _ log h1 h2 pass hp c hc with ⟨h3, _⟩ | ⟨_, h3⟩
  · exact h3
  · exact absurd rfl (h3 i)

theorem plogs_flags {hs : List PHasher} {done done' : List Nat} {op : POp Platform} {log : List (Pass a (Nat × Node a))}
    (hd : done.length = hs.length) (h : op.Logs a hs done done' log) :
    done'.length = (op.next a hs).length ∧
      ((∀ i, op ≠ .finalize i) → ∀ q ∈ log, ∀ c ∈ q, c.2.lastBlock = 0) := by
  obtain ⟨h1, h2, h3, h4⟩ := h
  have hlen : done'.length = (op.next a hs).length := by
    cases op <;> simp only [POp.next, List.length_append, List.length_modify] at h1 ⊢ <;> try (subst h1; simpa using hd)
    case update => obtain ⟨m, rfl⟩ := h1; simpa using hd
    case write => obtain ⟨m, rfl⟩ := h1; simpa using hd
    case clone i =>
      subst h1
      rw [List.length_append, hd]
      congr 1
      by_cases hi : i < hs.length
      · rw [List.getElem?_eq_getElem hi, List.getElem?_eq_getElem (by omega)]; rfl
      · rw [List.getElem?_eq_none (by omega), List.getElem?_eq_none (by omega)]; rfl
  have hle : hs.length ≤ (op.next a hs).length := by
    cases op <;> simp only [POp.next, List.length_append, List.length_modify] <;> omega
  refine ⟨hlen, fun hnf q hq c hc => ?_⟩
  obtain ⟨⟨i, node⟩, c⟩ := c
  have hlt : i < hs.length := (h4 q hq).2 _ hc
  have hlt' : i < (op.next a hs).length := by omega
  have hm := mem_callsOf hq hc
  have hk : i < done.length := by omega
  have hk' : i < done'.length := by omega
  obtain ⟨g1, g2⟩ := h3 i _ _ _ _ (List.getElem?_eq_getElem hlt) (List.getElem?_eq_getElem hlt') (List.getElem?_eq_getElem hk)
    (List.getElem?_eq_getElem hk')
  have g3 := h2 i _ _ (List.getElem?_eq_getElem hlt') (List.getElem?_eq_getElem hk')
  cases node with
  | none =>
    cases op <;> simp only at g2 <;> first | (rw [g2] at hm; cases hm) | exact absurd rfl (hnf _)
  | some leaf =>
    have other : ∀ h' : PHasher, done'[i] < (h'.calls a (some leaf)).length →
        (hs[i].calls a (some leaf)).take done[i] ++ callsOf (i, some leaf) log = (h'.calls a (some leaf)).take done'[i] →
        c.lastBlock = 0 := by
      intro h' hl e
      have hmem : c ∈ (h'.calls a (some leaf)).take done'[i] := by rw [← e]; exact List.mem_append_right _ hm
      have hsub : c ∈ (h'.calls a (some leaf)).dropLast := by
        rw [List.dropLast_eq_take]
        exact (List.take_subset_take_left _ (by omega)) hmem
      exact rfcCalls_unflagged (a := a) c hsub
    cases op <;> first | exact other _ (g3 leaf).1 (g1 leaf) | exact absurd rfl (hnf _)

/-- **C60**, trees, incremental. Only `finalize` runs compressions flagged as final. -/
theorem C60_tree_histories (dbg : Bool) (ops : List (POp Platform)) (hv : ValidPHistory a dbg [] ops) :
    ∃ ss logs, pexecAllT dbg ([] : List (PState a)) ops = .ok (ss, (panswers a [] ops).zip logs) ∧ logs.length = ops.length ∧
      ∀ (k : Nat) op log, ops[k]? = some op → logs[k]? = some log → (∀ i, op ≠ .finalize i) →
        ∀ pass ∈ log, ∀ c ∈ pass, c.2.lastBlock = 0 := by
  obtain ⟨ss, logs, e, hl, _⟩ := C48_tree_histories dbg ops hv
  refine ⟨ss, logs, e, ?_⟩
  clear e hv
  have key : ∀ (ops : List (POp Platform)) (hs : List PHasher) (done : List Nat) (logs : List (List (Pass a (Nat × Node a)))),
      done.length = hs.length → LogsPHistory a hs done ops logs →
      logs.length = ops.length ∧ ∀ (k : Nat) op log, ops[k]? = some op → logs[k]? = some log → (∀ i, op ≠ .finalize i) →
        ∀ pass ∈ log, ∀ c ∈ pass, c.2.lastBlock = 0 := by
    intro ops
    induction ops with
    | nil =>
      intro hs done logs _ h
      cases logs with
      | nil => exact ⟨rfl, fun k op log h => by simp at h⟩
      | cons _ _ => exact h.elim
    | cons op ops ih =>
      intro hs done logs hd h
      cases logs with
      | nil => exact h.elim
      | cons log logs =>
        obtain ⟨done', h1, h2⟩ := h
        obtain ⟨h5, h6⟩ := plogs_flags hd h1
        obtain ⟨h3, h4⟩ := ih _ _ _ h5 h2
        refine ⟨by simp [h3], fun k op' log' e e' => ?_⟩
        cases k with
        | zero =>
          simp only [List.getElem?_cons_zero, Option.some.injEq] at e e'
          subst e
          subst e'
          exact h6
        | succ k => exact h4 k op' log' (by simpa using e) (by simpa using e')
  exact key ops [] [] logs rfl hl

example : ∃ ss logs, pexecAllT true ([] : List (PState .b)) samplePHistory = .ok (ss, (panswers .b [] samplePHistory).zip logs) ∧
    logs.length = samplePHistory.length :=
  let ⟨ss, logs, h1, h2, _⟩ := C60_tree_histories (a := .b) true _ samplePHistory_valid
  ⟨ss, logs, h1, h2⟩

end Blake2
