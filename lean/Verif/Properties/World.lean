import Verif.Model.World
import Verif.Proofs.Early
import Verif.Properties.Safety
/-!
# C46: programs over the whole API
-/
namespace Blake2
open Spec

variable {a : Alg}

/-! ## What the values of the model stand for -/

/-- A job of the model and the task it stands for. -/
structure JobRel (a : Alg) (t : ManyJob) (j : HashManyJob a) : Prop where
  count : j.count = if t.config.key ≠ [] then BitVec.ofNat (2 * a.w) a.bb else 0
  lastNode : j.lastNode = t.config.lastNode
  hashLength : j.hashLength = BitVec.ofNat 8 t.config.digestLength
  input : j.input = t.msg
  finished : j.finished = t.finished
  words : j.done.words = Spec.process a (initH a t.config) (keyedData a t.config.key t.msg) t.config.lastNode
  start : t.finished = false → j.words = startWords a t.config
  valid : t.config.Valid a

/-- A hash of the model and the digest it stands for. -/
structure DigestRel (a : Alg) (d : Digest) (h : Hash a) : Prop where
  bytes : h.bytes = d.array
  len : h.len = BitVec.ofNat 8 d.len
  full : d.array.length = a.outbytes
  pos : 1 ≤ d.len
  le : d.len ≤ a.outbytes

/-- The store of the model stands for the world of the specification. -/
structure MemRel (a : Alg) (w : World) (m : Mem a) : Prop where
  params : Rel (Rep a) w.params m.params
  states : Rel (HRel a) w.states m.states
  jobs : Rel (JobRel a) w.jobs m.jobs
  hashes : Rel (DigestRel a) w.hashes m.hashes
  treeParams : Rel (fun c p => PRep a c.hashLength c.key p) w.treeParams m.treeParams
  treeStates : Rel (PHRel a) w.treeStates m.treeStates

theorem ofNat8_toNat {n : Nat} (h : n ≤ a.outbytes) : (BitVec.ofNat 8 n).toNat = n := by
  have := outbytes_lt a
  rw [BitVec.toNat_ofNat]; exact Nat.mod_eq_of_lt (by omega)

namespace DigestRel
variable {d : Digest} {h : Hash a}

theorem toNat (r : DigestRel a d h) : h.len.toNat = d.len := by rw [r.len, ofNat8_toNat r.le]

theorem asBytes (r : DigestRel a d h) : h.asBytes = .ok d.bytes := by
  unfold Hash.asBytes sliceTo
  rw [r.toNat, r.bytes, if_pos (by rw [r.full]; exact r.le)]
  rfl

theorem toHex (r : DigestRel a d h) : h.toHex = .ok (hexOf d.bytes) := by
  unfold Hash.toHex
  rw [r.asBytes]
  exact bytesToHex_eq _ (by rw [Digest.bytes, List.length_take]; have := r.le; omega)

theorem asArray (r : DigestRel a d h) (dbg : Bool) :
    h.asArray dbg = if dbg = true ∧ d.len < maxOut a then .error .panic else .ok d.array := by
  unfold Hash.asArray
  rw [r.toNat, r.bytes, maxOut_eq]
  have := r.le
  by_cases hc : dbg = true ∧ d.len < a.outbytes
  · rw [if_pos hc, if_pos]
    rw [hc.1, Bool.true_and, Bool.not_eq_true', beq_eq_false_iff_ne]
    omega
  · rw [if_neg hc, if_neg]
    intro h'
    rw [Bool.and_eq_true, Bool.not_eq_true', beq_eq_false_iff_ne] at h'
    exact hc ⟨h'.1, by omega⟩

theorem of {c : Config} (hv : c.Valid a) (msg : List Byte) {n : BitVec 8} (hn : n = BitVec.ofNat 8 c.digestLength) :
    DigestRel a (Digest.of a c msg) { bytes := hashFull a c msg, len := n } :=
  ⟨rfl, hn, wordsToBytes_length _, hv.1, by have := hv.2.1; rwa [maxOut_eq] at this⟩

theorem ofTree {c : PConfig} (h1 : 1 ≤ c.hashLength) (h2 : c.hashLength ≤ maxOut a) (msg : List Byte) {n : BitVec 8}
    (hn : n = BitVec.ofNat 8 c.hashLength) :
    DigestRel a (Digest.ofTree a c msg) { bytes := treeFull a c.hashLength c.key msg, len := n } :=
  ⟨rfl, hn, treeFull_length _, h1, by rwa [maxOut_eq] at h2⟩

end DigestRel

theorem JobRel.new {c : Config} {p : Params a} (r : Rep a c p) (msg : List Byte) :
    ∃ j, HashManyJob.new p msg = .ok j ∧ JobRel a (ManyJob.new c msg) j := by
  obtain ⟨j, hn, _, hl, hf, hw⟩ := hashManyJob_new r msg
  refine ⟨j, hn, ?_⟩
  have e : j.count = (if c.key ≠ [] then BitVec.ofNat (2 * a.w) a.bb else 0) ∧ j.lastNode = p.lastNode ∧ j.input = msg := by
    have hk := r.key_toNat
    unfold HashManyJob.new at hn
    by_cases he : c.key = []
    · simp only [show ¬ p.keyLength.toNat > 0 from by rw [hk, he]; simp, if_false] at hn
      cases hn
      exact ⟨by simp [he], rfl, rfl⟩
    · simp only [show p.keyLength.toNat > 0 from by rw [hk]; exact List.length_pos_iff.2 he, if_true, bind,
        Except.bind] at hn
      split at hn
      · cases hn
      · next h1 =>
        split at h1
        · cases h1
        · cases h1
          cases hn
          exact ⟨by simp [he], rfl, rfl⟩
  exact ⟨e.1, e.2.1.trans r.lastNode, hl.trans r.hashLength, e.2.2, hf, hw,
    fun ht => hashManyJob_new_words r msg hn (hf.trans ht), r.valid⟩

theorem JobRel.count_ok {t : ManyJob} {j : HashManyJob a} (r : JobRel a t j) : j.count.toNat % a.bb = 0 := by
  rw [r.count]
  split
  · have hdvd : a.bb ∣ 2 ^ (2 * a.w) := Nat.dvd_trans (bb_dvd a) (Nat.pow_dvd_pow _ (by omega))
    rw [BitVec.toNat_ofNat, Nat.mod_mod_of_dvd _ hdvd, Nat.mod_self]
  · simp

theorem JobRel.done {t : ManyJob} {j : HashManyJob a} (r : JobRel a t j) : JobRel a { t with finished := true } j.done := by
  have hw := r.words
  rw [← done_done] at hw
  refine ⟨?_, ?_, (done_hashLength j).trans r.hashLength, ?_, done_finished j, hw, (by simp), r.valid⟩
  · rw [← r.count]; unfold HashManyJob.done; split <;> rfl
  · rw [← r.lastNode]; unfold HashManyJob.done; split <;> rfl
  · rw [← r.input]; unfold HashManyJob.done; split <;> rfl

/-- What `to_hash` does with a finished job. -/
theorem JobRel.toHash {t : ManyJob} {j : HashManyJob a} (r : JobRel a t j) (dbg : Bool) (ht : t.finished = true) :
    ∃ h, j.toHash dbg = .ok h ∧ DigestRel a (Digest.of a t.config t.msg) h := by
  have hf := r.finished
  rw [ht] at hf
  have hd : j.done = j := by unfold HashManyJob.done; rw [if_pos hf]
  unfold HashManyJob.toHash
  rw [hf, Bool.not_true, Bool.and_false]
  refine ⟨_, rfl, ?_⟩
  have hw := r.words
  rw [hd] at hw
  rw [hw, stateWordsToBytes_eq]
  exact DigestRel.of r.valid t.msg r.hashLength

/-- What it does with another one. -/
theorem JobRel.toHash_unfinished {t : ManyJob} {j : HashManyJob a} (r : JobRel a t j) (ht : t.finished = false) :
    j.toHash true = .error .panic ∧ ∃ h, j.toHash false = .ok h ∧ DigestRel a (Digest.early a t.config) h := by
  have hf := r.finished
  rw [ht] at hf
  unfold HashManyJob.toHash
  rw [hf]
  refine ⟨rfl, _, rfl, ?_⟩
  rw [r.start ht, stateWordsToBytes_eq]
  exact ⟨rfl, r.hashLength, wordsToBytes_length _, r.valid.1, by have := r.valid.2.1; rwa [maxOut_eq] at this⟩

/-- Both. -/
theorem JobRel.toHash_ok {t : ManyJob} {j : HashManyJob a} (r : JobRel a t j) (dbg : Bool)
    (h : ¬ (dbg = true ∧ t.finished = false)) : ∃ h, j.toHash dbg = .ok h ∧ DigestRel a (t.result a) h := by
  unfold ManyJob.result
  cases ht : t.finished with
  | true => exact r.toHash dbg ht
  | false =>
    cases dbg with
    | true => exact absurd ⟨rfl, ht⟩ h
    | false => exact (r.toHash_unfinished ht).2

theorem JobRel.debugFmt {t : ManyJob} {j : HashManyJob a} (r : JobRel a t j) : j.debugFmt = t.text a := by
  have h2 := r.valid.2.1
  rw [maxOut_eq] at h2
  have hc : j.count.toNat = if t.config.key ≠ [] then bb a else 0 := by
    rw [r.count, bb_eq]
    split
    · rw [BitVec.toNat_ofNat]; apply Nat.mod_eq_of_lt; cases a <;> decide
    · rfl
  unfold HashManyJob.debugFmt ManyJob.text
  rw [hc, r.hashLength, ofNat8_toNat h2, r.lastNode, r.input]
  rfl

theorem Rep.debugFmt {c : Config} {p : Params a} (r : Rep a c p) : p.debugFmt = c.text a := by
  obtain ⟨v1, v2, v3, v4, v5, v6, v7, v8, v9, v10, v11⟩ := r.valid
  rw [maxOut_eq] at v2 v3 v9
  have v7' : c.nodeOffset < 2 ^ 64 := Nat.lt_of_lt_of_le v7 (by cases a <;> decide)
  have hs : a.saltbytes = saltBytes a ∧ a.personalbytes = saltBytes a := by cases a <;> exact ⟨rfl, rfl⟩
  unfold Params.debugFmt Config.text
  rw [r.hashLength, r.keyLength, r.salt, r.personal, r.fanout, r.maxDepth, r.maxLeafLength, r.nodeOffset, r.nodeDepth,
    r.innerHashLength, r.lastNode, ofNat8_toNat v2, ofNat8_toNat v3, ofNat8_toNat v9, BitVec.toNat_ofNat, BitVec.toNat_ofNat,
    BitVec.toNat_ofNat, BitVec.toNat_ofNat, BitVec.toNat_ofNat, Nat.mod_eq_of_lt v4, Nat.mod_eq_of_lt v5, Nat.mod_eq_of_lt v6,
    Nat.mod_eq_of_lt v7', Nat.mod_eq_of_lt v8, hs.1, hs.2]
  rfl

theorem PRep.debugFmt {c : PConfig} {p : PParams a} (r : PRep a c.hashLength c.key p) : p.debugFmt = c.text := by
  have v2 := r.le
  have v3 := r.keyLe
  rw [maxOut_eq] at v2 v3
  unfold PParams.debugFmt PConfig.text
  rw [r.hashLength, r.keyLength, ofNat8_toNat v2, ofNat8_toNat v3]

theorem HRel.debugFmt {h : Hasher} {s : State a} (r : HRel a h s) (dbg : Bool) :
    s.debugFmt dbg = if dbg = true ∧ CountUnderflow a (bb a) h.config.key h.msg then .error .panic else .ok (h.text a) := by
  have v2 := r.2.2.2.2.2.1
  rw [maxOut_eq] at v2
  unfold State.debugFmt
  rw [r.count_exact]
  split
  · rfl
  · simp only [bind, Except.bind, r.2.1, r.2.2.1, BitVec.toNat_ofNat]
    have := ofNat8_toNat v2
    rw [BitVec.toNat_ofNat] at this
    rw [this]
    rfl

theorem PHRel.debugFmt {h : PHasher} {s : PState a} (r : PHRel a h s) (dbg : Bool) :
    s.debugFmt dbg = if dbg = true ∧ CountUnderflow a (degree a * bb a) h.config.key h.msg then .error .panic
      else .ok (h.text a) := by
  have v2 := r.2.2.2.2.1
  rw [maxOut_eq] at v2
  unfold PState.debugFmt
  rw [r.count_exact]
  split
  · rfl
  · simp only [bind, Except.bind, r.2.2.1, BitVec.toNat_ofNat]
    have := ofNat8_toNat v2
    rw [BitVec.toNat_ofNat] at this
    rw [this]
    rfl

theorem Rep.forcePortable {c : Config} {p : Params a} (r : Rep a c p) : Rep a c p.forcePortable :=
  ⟨r.1, r.2, r.3, r.4, r.5, r.6, r.7, r.8, r.9, r.10, r.11, r.12, r.13⟩

theorem PRep.forcePortable {c : PConfig} {p : PParams a} (r : PRep a c.hashLength c.key p) :
    PRep a c.hashLength c.key p.forcePortable := ⟨r.1, r.2, r.3, r.4, r.5, r.6⟩

theorem Rel.batch {ts : List ManyJob} {js : List (HashManyJob a)} (r : Rel (JobRel a) ts js) (is : List Nat)
    (hi : ∀ i ∈ is, i < ts.length) :
    ∃ out, runBatch js is = .ok out ∧
      Rel (JobRel a) (ts.mapIdx fun k t => if k ∈ is then { t with finished := true } else t) out := by
  obtain ⟨out, e, hl, hg⟩ := runBatch_eq js is (fun i h => by rw [r.1]; exact hi i h) (by
    intro j hj
    obtain ⟨k, hk, rfl⟩ := List.getElem_of_mem hj
    exact (r.2 k (by rw [← r.1]; exact hk) hk).count_ok)
  refine ⟨out, e, by rw [hl, r.1, List.length_mapIdx], fun k h1 h2 => ?_⟩
  rw [List.length_mapIdx] at h1
  have h3 : k < js.length := by rw [r.1]; exact h1
  have hr := r.2 k h1 h3
  have := hg k
  rw [List.getElem?_eq_getElem h2, List.getElem?_eq_getElem h3] at this
  rw [List.getElem_mapIdx]
  by_cases hk : k ∈ is
  · rw [if_pos hk] at this ⊢
    simp only [Option.map_some, Option.some.injEq] at this
    rw [this]
    exact hr.done
  · rw [if_neg hk] at this ⊢
    simp only [Option.some.injEq] at this
    rw [this]
    exact hr

theorem about_get {α : Type} {l : List α} {i : Nat} (hi : i < l.length) (f : α → Answer) : about l i f = f l[i] := by
  unfold about
  rw [List.getElem?_eq_getElem hi]

/-- Unless it panics, a well-typed call does what the specification says. -/
theorem apiCall_refines {w : World} {m : Mem a} (r : MemRel a w m) (dbg : Bool) (c : ApiCall Platform)
    (hw : c.WellTyped a w) (hp : ¬ c.Panics a dbg w) :
    ∃ m', c.exec dbg m = .ok (m', c.answer a w) ∧ MemRel a (c.next a w) m' := by
  obtain ⟨rp, rs, rj, rh, rt, ru⟩ := r
  cases c with
  | newParams plat => exact ⟨_, rfl, rp.append (rep_new a plat), rs, rj, rh, rt, ru⟩
  | cloneParams i =>
    obtain ⟨p, e, _, hr⟩ := rp.get hw
    refine ⟨_, by simp only [ApiCall.exec, e, bind, Except.bind]; rfl, ?_⟩
    refine ⟨?_, rs, rj, rh, rt, ru⟩
    simp only [ApiCall.next, List.getElem?_eq_getElem (show i < w.params.length from hw)]
    exact rp.append hr
  | set i s =>
    obtain ⟨p, e, _, hr⟩ := rp.get hw
    obtain ⟨p', e', hr', _⟩ := rep_run hr s (Classical.byContradiction hp)
    refine ⟨_, by simp only [ApiCall.exec, e, e', bind, Except.bind]; rfl, ?_⟩
    refine ⟨?_, rs, rj, rh, rt, ru⟩
    exact rp.modify hw (fun c => s.apply c) hr'
  | forcePortable i =>
    obtain ⟨p, e, _, hr⟩ := rp.get hw
    refine ⟨_, by simp only [ApiCall.exec, e, bind, Except.bind]; rfl, ?_⟩
    exact ⟨rp.set hw hr.forcePortable, rs, rj, rh, rt, ru⟩
  | hash i x =>
    obtain ⟨p, e, _, hr⟩ := rp.get hw
    refine ⟨_, by simp only [ApiCall.exec, e, hash_eq hr, bind, Except.bind]; rfl, ?_⟩
    refine ⟨rp, rs, rj, ?_, rt, ru⟩
    simp only [ApiCall.next, List.getElem?_eq_getElem (show i < w.params.length from hw)]
    exact rh.append (DigestRel.of hr.valid x hr.hashLength)
  | toState i =>
    obtain ⟨p, e, _, hr⟩ := rp.get hw
    refine ⟨_, by simp only [ApiCall.exec, e, bind, Except.bind]; rfl, ?_⟩
    refine ⟨rp, ?_, rj, rh, rt, ru⟩
    simp only [ApiCall.next, List.getElem?_eq_getElem (show i < w.params.length from hw)]
    exact rs.append (HRel.create hr)
  | debugParams i =>
    obtain ⟨p, e, _, hr⟩ := rp.get hw
    refine ⟨_, ?_, rp, rs, rj, rh, rt, ru⟩
    simp only [ApiCall.exec, e, bind, Except.bind, hr.debugFmt, ApiCall.answer]
    rw [about_get hw]
  | oneShot plat x =>
    refine ⟨_, by simp only [ApiCall.exec, blake2, hash_eq (rep_new a plat), bind, Except.bind]; rfl, ?_⟩
    refine ⟨rp, rs, rj, ?_, rt, ru⟩
    exact rh.append (DigestRel.of (rep_new a plat).valid x (rep_new a plat).hashLength)
  | newState plat => exact ⟨_, rfl, rp, rs.append (HRel.create (rep_new a plat)), rj, rh, rt, ru⟩
  | onStates op =>
    obtain ⟨ss, e, rs'⟩ := exec_refines rs dbg op (Op.valid_of_wellTyped hw hp)
    refine ⟨_, by simp only [ApiCall.exec, e, bind, Except.bind, ApiCall.answer]; rfl, ?_⟩
    exact ⟨rp, rs', rj, rh, rt, ru⟩
  | finalize i =>
    obtain ⟨s, e, _, hr⟩ := rs.get hw
    refine ⟨_, by simp only [ApiCall.exec, e, hr.finalize, bind, Except.bind]; rfl, ?_⟩
    refine ⟨rp, rs, rj, ?_, rt, ru⟩
    simp only [ApiCall.next, List.getElem?_eq_getElem (show i < w.states.length from hw)]
    exact rh.append (DigestRel.of hr.2.2.2.2 _ rfl)
  | debugState i =>
    obtain ⟨s, e, _, hr⟩ := rs.get hw
    have hi : i < w.states.length := hw
    refine ⟨_, ?_, rp, rs, rj, rh, rt, ru⟩
    simp only [ApiCall.exec, e, bind, Except.bind, hr.debugFmt, ApiCall.answer]
    rw [about_get hi, if_neg fun h => hp ⟨h.1, _, List.getElem?_eq_getElem hi, h.2⟩]
    rfl
  | newJob i x =>
    obtain ⟨p, e, _, hr⟩ := rp.get hw
    obtain ⟨j, e', hr'⟩ := JobRel.new hr x
    refine ⟨_, by simp only [ApiCall.exec, e, e', bind, Except.bind]; rfl, ?_⟩
    refine ⟨rp, rs, ?_, rh, rt, ru⟩
    simp only [ApiCall.next, List.getElem?_eq_getElem (show i < w.params.length from hw)]
    exact rj.append hr'
  | cloneJob i =>
    obtain ⟨j, e, _, hr⟩ := rj.get hw
    refine ⟨_, by simp only [ApiCall.exec, e, bind, Except.bind]; rfl, ?_⟩
    refine ⟨rp, rs, ?_, rh, rt, ru⟩
    simp only [ApiCall.next, List.getElem?_eq_getElem (show i < w.jobs.length from hw)]
    exact rj.append hr
  | hashMany is =>
    obtain ⟨out, e, rj'⟩ := rj.batch is hw.1
    refine ⟨_, by simp only [ApiCall.exec, e, bind, Except.bind]; rfl, ?_⟩
    exact ⟨rp, rs, rj', rh, rt, ru⟩
  | toHash i =>
    obtain ⟨j, e, _, hr⟩ := rj.get hw
    have hi : i < w.jobs.length := hw
    obtain ⟨h, e', hd⟩ := hr.toHash_ok dbg fun hc => hp ⟨hc.1, _, List.getElem?_eq_getElem hi, hc.2⟩
    refine ⟨_, by simp only [ApiCall.exec, e, e', bind, Except.bind]; rfl, ?_⟩
    refine ⟨rp, rs, rj, ?_, rt, ru⟩
    simp only [ApiCall.next, List.getElem?_eq_getElem hi]
    exact rh.append hd
  | debugJob i =>
    obtain ⟨j, e, _, hr⟩ := rj.get hw
    refine ⟨_, ?_, rp, rs, rj, rh, rt, ru⟩
    simp only [ApiCall.exec, e, bind, Except.bind, hr.debugFmt, ApiCall.answer]
    rw [about_get hw]
  | ofArray d =>
    refine ⟨_, rfl, rp, rs, rj, ?_, rt, ru⟩
    refine rh.append ⟨rfl, ?_, by rw [← maxOut_eq]; exact hw, show 1 ≤ maxOut a by cases a <;> decide, by rw [maxOut_eq]; exact Nat.le_refl _⟩
    rw [maxOut_eq]; rfl
  | asBytes i =>
    obtain ⟨h, e, _, hr⟩ := rh.get hw
    refine ⟨_, ?_, rp, rs, rj, rh, rt, ru⟩
    simp only [ApiCall.exec, e, bind, Except.bind, hr.asBytes, ApiCall.answer]
    rw [about_get hw]
  | asArray i =>
    obtain ⟨h, e, _, hr⟩ := rh.get hw
    have hi : i < w.hashes.length := hw
    refine ⟨_, ?_, rp, rs, rj, rh, rt, ru⟩
    simp only [ApiCall.exec, e, bind, Except.bind, hr.asArray, ApiCall.answer]
    rw [about_get hi, if_neg fun h => hp ⟨h.1, _, List.getElem?_eq_getElem hi, h.2⟩]
    rfl
  | toHex i =>
    obtain ⟨h, e, _, hr⟩ := rh.get hw
    refine ⟨_, ?_, rp, rs, rj, rh, rt, ru⟩
    simp only [ApiCall.exec, e, bind, Except.bind, hr.toHex, ApiCall.answer]
    rw [about_get hw]
  | eqHash i j =>
    obtain ⟨h, e, _, hr⟩ := rh.get hw.1
    obtain ⟨k, e', _, hr'⟩ := rh.get hw.2
    refine ⟨_, ?_, rp, rs, rj, rh, rt, ru⟩
    simp only [ApiCall.exec, e, e', bind, Except.bind, Hash.eqHash, hr.asBytes, hr'.asBytes, constantTimeEq_eq, ApiCall.answer]
    rw [about_get hw.1, about_get hw.2]
  | eqBytes i x =>
    obtain ⟨h, e, _, hr⟩ := rh.get hw
    refine ⟨_, ?_, rp, rs, rj, rh, rt, ru⟩
    simp only [ApiCall.exec, e, bind, Except.bind, Hash.eqSlice, hr.asBytes, constantTimeEq_eq, ApiCall.answer]
    rw [about_get hw]
  | debugHash i =>
    obtain ⟨h, e, _, hr⟩ := rh.get hw
    refine ⟨_, ?_, rp, rs, rj, rh, rt, ru⟩
    simp only [ApiCall.exec, e, bind, Except.bind, Hash.debugFmt, hr.toHex, ApiCall.answer]
    rw [about_get hw]
    rfl
  | newTree plat => exact ⟨_, rfl, rp, rs, rj, rh, rt.append (prep_new a plat), ru⟩
  | cloneTree i =>
    obtain ⟨p, e, _, hr⟩ := rt.get hw
    refine ⟨_, by simp only [ApiCall.exec, e, bind, Except.bind]; rfl, ?_⟩
    refine ⟨rp, rs, rj, rh, ?_, ru⟩
    simp only [ApiCall.next, List.getElem?_eq_getElem (show i < w.treeParams.length from hw)]
    exact rt.append hr
  | setTree i s =>
    obtain ⟨p, e, _, hr⟩ := rt.get hw
    obtain ⟨p', e', hr', _⟩ := prep_run hr s (Classical.byContradiction hp)
    refine ⟨_, by simp only [ApiCall.exec, e, e', bind, Except.bind]; rfl, ?_⟩
    refine ⟨rp, rs, rj, rh, ?_, ru⟩
    exact rt.modify hw (fun c => s.apply c) hr'
  | forcePortableTree i =>
    obtain ⟨p, e, _, hr⟩ := rt.get hw
    refine ⟨_, by simp only [ApiCall.exec, e, bind, Except.bind]; rfl, ?_⟩
    exact ⟨rp, rs, rj, rh, rt.set hw hr.forcePortable, ru⟩
  | hashTree i x =>
    obtain ⟨p, e, _, hr⟩ := rt.get hw
    refine ⟨_, by simp only [ApiCall.exec, e, PParams.hash_eq hr, bind, Except.bind]; rfl, ?_⟩
    refine ⟨rp, rs, rj, ?_, rt, ru⟩
    simp only [ApiCall.next, List.getElem?_eq_getElem (show i < w.treeParams.length from hw)]
    exact rh.append (DigestRel.ofTree hr.pos hr.le x hr.hashLength)
  | toTreeState i =>
    obtain ⟨p, e, _, hr⟩ := rt.get hw
    obtain ⟨s, e', hr'⟩ := PHRel.create hr
    refine ⟨_, by simp only [ApiCall.exec, e, e', bind, Except.bind]; rfl, ?_⟩
    refine ⟨rp, rs, rj, rh, rt, ?_⟩
    simp only [ApiCall.next, List.getElem?_eq_getElem (show i < w.treeParams.length from hw)]
    exact ru.append hr'
  | debugTree i =>
    obtain ⟨p, e, _, hr⟩ := rt.get hw
    refine ⟨_, ?_, rp, rs, rj, rh, rt, ru⟩
    simp only [ApiCall.exec, e, bind, Except.bind, hr.debugFmt, ApiCall.answer]
    rw [about_get hw]
  | oneShotTree plat x =>
    have hr : PRep a (PConfig.default a).hashLength (PConfig.default a).key (PParams.new a plat) := prep_new a plat
    refine ⟨_, by simp only [ApiCall.exec, blake2p, PParams.hash_eq hr, bind, Except.bind]; rfl, ?_⟩
    refine ⟨rp, rs, rj, ?_, rt, ru⟩
    exact rh.append (DigestRel.ofTree hr.pos hr.le x hr.hashLength)
  | newTreeState plat =>
    have hr : PRep a (PConfig.default a).hashLength (PConfig.default a).key (PParams.new a plat) := prep_new a plat
    obtain ⟨s, e', hr'⟩ := PHRel.create hr
    rw [PParams.toState] at e'
    refine ⟨_, by simp only [ApiCall.exec, PState.new, e', bind, Except.bind]; rfl, ?_⟩
    exact ⟨rp, rs, rj, rh, rt, ru.append hr'⟩
  | onTreeStates op =>
    obtain ⟨ss, e, ru'⟩ := pexec_refines ru dbg op (POp.valid_of_wellTyped hw hp)
    refine ⟨_, by simp only [ApiCall.exec, e, bind, Except.bind, ApiCall.answer]; rfl, ?_⟩
    exact ⟨rp, rs, rj, rh, rt, ru'⟩
  | finalizeTree i =>
    obtain ⟨s, e, _, hr⟩ := ru.get hw
    refine ⟨_, by simp only [ApiCall.exec, e, hr.finalize, bind, Except.bind]; rfl, ?_⟩
    refine ⟨rp, rs, rj, ?_, rt, ru⟩
    simp only [ApiCall.next, List.getElem?_eq_getElem (show i < w.treeStates.length from hw)]
    exact rh.append (DigestRel.ofTree hr.2.2.2.2.2.2 hr.2.2.2.2.1 _ rfl)
  | debugTreeState i =>
    obtain ⟨s, e, _, hr⟩ := ru.get hw
    have hi : i < w.treeStates.length := hw
    refine ⟨_, ?_, rp, rs, rj, rh, rt, ru⟩
    simp only [ApiCall.exec, e, bind, Except.bind, hr.debugFmt, ApiCall.answer]
    rw [about_get hi, if_neg fun h => hp ⟨h.1, _, List.getElem?_eq_getElem hi, h.2⟩]
    rfl

/-- The calls that are said to panic do. -/
theorem apiCall_panics {w : World} {m : Mem a} (r : MemRel a w m) (dbg : Bool) (c : ApiCall Platform)
    (hw : c.WellTyped a w) (hp : c.Panics a dbg w) : c.exec dbg m = .error .panic := by
  obtain ⟨rp, rs, rj, rh, rt, ru⟩ := r
  cases c <;> try exact hp.elim
  case set i s =>
    obtain ⟨p, e, _, _⟩ := rp.get hw
    simp only [ApiCall.exec, e, bind, Except.bind, run_panics p s hp]
  case setTree i s =>
    obtain ⟨p, e, _, _⟩ := rt.get hw
    simp only [ApiCall.exec, e, bind, Except.bind, prun_panics p s hp]
  case onStates op => simp only [ApiCall.exec, exec_panics rs dbg op hp, bind, Except.bind]
  case onTreeStates op => simp only [ApiCall.exec, pexec_panics ru dbg op hp, bind, Except.bind]
  case debugState i =>
    obtain ⟨s, e, _, hr⟩ := rs.get hw
    obtain ⟨hd, k, hk, hc⟩ := hp
    obtain ⟨_, rfl⟩ := List.getElem?_eq_some_iff.1 hk
    simp only [ApiCall.exec, e, bind, Except.bind, hr.debugFmt]
    rw [if_pos ⟨hd, hc⟩]
  case debugTreeState i =>
    obtain ⟨s, e, _, hr⟩ := ru.get hw
    obtain ⟨hd, k, hk, hc⟩ := hp
    obtain ⟨_, rfl⟩ := List.getElem?_eq_some_iff.1 hk
    simp only [ApiCall.exec, e, bind, Except.bind, hr.debugFmt]
    rw [if_pos ⟨hd, hc⟩]
  case toHash i =>
    obtain ⟨j, e, _, hr⟩ := rj.get hw
    obtain ⟨hd, k, hk, hc⟩ := hp
    obtain ⟨_, rfl⟩ := List.getElem?_eq_some_iff.1 hk
    subst hd
    simp only [ApiCall.exec, e, bind, Except.bind, (hr.toHash_unfinished hc).1]
  case asArray i =>
    obtain ⟨h, e, _, hr⟩ := rh.get hw
    obtain ⟨hd, k, hk, hc⟩ := hp
    obtain ⟨_, rfl⟩ := List.getElem?_eq_some_iff.1 hk
    simp only [ApiCall.exec, e, bind, Except.bind, hr.asArray]
    rw [if_pos ⟨hd, hc⟩]

theorem run_refines {w : World} {m : Mem a} (r : MemRel a w m) (dbg : Bool) (prog : List (ApiCall Platform))
    (hv : w.ValidProgram a dbg prog) :
    ∃ m', m.run dbg prog = .ok (m', w.answers a prog) ∧ MemRel a (w.after a prog) m' := by
  induction prog generalizing w m with
  | nil => exact ⟨m, rfl, r⟩
  | cons c cs ih =>
    obtain ⟨m1, e1, r1⟩ := apiCall_refines r dbg c hv.1.1 hv.1.2
    obtain ⟨m2, e2, r2⟩ := ih r1 hv.2
    refine ⟨m2, ?_, r2⟩
    simp only [Mem.run, e1, e2, bind, Except.bind, World.answers]

theorem memRel_empty : MemRel a {} {} := ⟨rel_nil, rel_nil, rel_nil, rel_nil, rel_nil, rel_nil⟩

/-! ## C46 -/

/-- C46. Any program over the whole public API — parameters made, changed, cloned and reused; states, jobs and hashes made from
them and used in any interleaving; serial and tree hashing side by side; debug or release build — returns exactly the answers
of the specification. -/
theorem C46_programs (dbg : Bool) (prog : List (ApiCall Platform)) (hv : World.ValidProgram a dbg {} prog) :
    ∃ m, ({} : Mem a).run dbg prog = .ok (m, World.answers a {} prog) := by
  obtain ⟨m, e, _⟩ := run_refines (a := a) memRel_empty dbg prog hv
  exact ⟨m, e⟩

/-- C46. After any program, a well-typed call panics exactly if it is one of the documented panics, and otherwise returns the
specified answer: no call reads outside a buffer or fails to terminate. -/
theorem C46_outcome (dbg : Bool) (prog : List (ApiCall Platform)) (hv : World.ValidProgram a dbg {} prog)
    (c : ApiCall Platform) (hw : c.WellTyped a (World.after a {} prog)) :
    ∃ m os, ({} : Mem a).run dbg prog = .ok (m, os) ∧
      (c.Panics a dbg (World.after a {} prog) → c.exec dbg m = .error .panic) ∧
      (¬ c.Panics a dbg (World.after a {} prog) → ∃ m', c.exec dbg m = .ok (m', c.answer a (World.after a {} prog))) := by
  obtain ⟨m, e, r⟩ := run_refines (a := a) memRel_empty dbg prog hv
  refine ⟨m, _, e, apiCall_panics r dbg c hw, fun hp => ?_⟩
  obtain ⟨m', e', _⟩ := apiCall_refines r dbg c hw hp
  exact ⟨m', e'⟩

theorem apiCall_onPlatforms (f : Platform → Platform) (w : World) (c : ApiCall Platform) (dbg : Bool) :
    (c.onPlatforms f).next a w = c.next a w ∧ (c.onPlatforms f).answer a w = c.answer a w ∧
      (c.Valid a dbg w → (c.onPlatforms f).Valid a dbg w) := by
  cases c <;> try exact ⟨rfl, rfl, id⟩
  case onStates op => cases op <;> exact ⟨rfl, rfl, id⟩
  case onTreeStates op => cases op <;> exact ⟨rfl, rfl, id⟩

/-- C46. What a program returns does not depend on the platforms detected on the way. -/
theorem C46_platforms (f : Platform → Platform) (dbg : Bool) (prog : List (ApiCall Platform))
    (hv : World.ValidProgram a dbg {} prog) :
    ∃ m m' os, ({} : Mem a).run dbg prog = .ok (m, os) ∧
      ({} : Mem a).run dbg (prog.map (ApiCall.onPlatforms f)) = .ok (m', os) := by
  have key : ∀ (prog : List (ApiCall Platform)) (w : World), w.ValidProgram a dbg prog →
      w.ValidProgram a dbg (prog.map (ApiCall.onPlatforms f)) ∧
      w.answers a (prog.map (ApiCall.onPlatforms f)) = w.answers a prog := by
    intro prog
    induction prog with
    | nil => exact fun _ _ => ⟨trivial, rfl⟩
    | cons c cs ih =>
      intro w hv
      obtain ⟨h1, h2, h3⟩ := apiCall_onPlatforms (a := a) f w c dbg
      obtain ⟨h4, h5⟩ := ih _ hv.2
      refine ⟨⟨h3 hv.1, by rw [h1]; exact h4⟩, ?_⟩
      simp only [List.map_cons, World.answers, h1, h2, h5]
  obtain ⟨m, e⟩ := C46_programs dbg prog hv
  obtain ⟨h1, h2⟩ := key prog {} hv
  obtain ⟨m', e'⟩ := C46_programs dbg _ h1
  exact ⟨m, m', _, e, by rw [e', h2]⟩

theorem apiCall_release {w : World} {c : ApiCall Platform} (h : c.Valid a true w) : c.Valid a false w := by
  obtain ⟨h1, h2⟩ := h
  refine ⟨h1, fun hp => h2 ?_⟩
  cases c <;> try exact hp
  case onStates op => cases op <;> first | exact hp | exact absurd hp.1 (by decide)
  case onTreeStates op => cases op <;> first | exact hp | exact absurd hp.1 (by decide)
  all_goals exact absurd hp.1 (by decide)

/-- C46. A program that does not panic in a debug build returns the same answers in a release build. -/
theorem C46_builds (prog : List (ApiCall Platform)) (hv : World.ValidProgram a true {} prog) :
    ∃ m m' os, ({} : Mem a).run true prog = .ok (m, os) ∧ ({} : Mem a).run false prog = .ok (m', os) := by
  have key : ∀ (prog : List (ApiCall Platform)) (w : World), w.ValidProgram a true prog → w.ValidProgram a false prog := by
    intro prog
    induction prog with
    | nil => exact fun _ _ => trivial
    | cons c cs ih => exact fun w hv => ⟨apiCall_release hv.1, ih _ hv.2⟩
  obtain ⟨m, e⟩ := C46_programs true prog hv
  obtain ⟨m', e'⟩ := C46_programs false prog (key prog {} hv)
  exact ⟨m, m', _, e, e'⟩

/-- A program that uses everything: parameters are changed after a state and a job were made from them, jobs and states run in
batches, hashes are compared across sources. It is valid, also in debug builds. -/
def sampleProgram : List (ApiCall Platform) :=
  [.newParams .AVX2, .set 0 (.hashLength 20), .set 0 (.key [1, 2, 3]), .toState 0, .newJob 0 [9, 9], .cloneParams 0,
   .set 0 (.hashLength 64), .set 0 (.key []), .forcePortable 0, .newJob 0 [9, 9], .newJob 1 [],
   .onStates (.update 0 [9]), .onStates (.clone 0), .onStates (.updateMany [(1, [7]), (0, [9])]), .finalize 0, .finalize 1,
   .hashMany [2, 0, 1], .toHash 0, .toHash 1, .toHash 2, .eqHash 0 2, .eqHash 0 1, .toHex 3, .asArray 3, .debugState 0,
   .debugJob 0, .debugParams 1, .hash 1 [9, 9], .eqHash 5 0, .oneShot .SSE41 [], .newState .Portable,
   .newTree .AVX2, .setTree 0 (.hashLength 5), .toTreeState 0, .setTree 0 (.key [4]), .onTreeStates (.update 0 [1, 2]),
   .finalizeTree 0, .hashTree 0 [1, 2], .eqHash 7 8, .debugHash 7, .debugTree 0, .debugTreeState 0, .oneShotTree .Portable [],
   .newTreeState .SSE41, .ofArray (List.replicate 64 0), .asBytes 10, .eqBytes 10 [], .cloneJob 0, .cloneTree 0]

example : World.ValidProgram .b true {} sampleProgram := by decide +kernel

/-- The job and the state made before the parameters were changed agree with each other. -/
example : (World.answers .b {} sampleProgram)[20]? = some (.bool true) := by decide +kernel

/-- Each of the documented panics occurs. -/
example : (ApiCall.set 0 (.hashLength 0) : ApiCall Platform).Panics .b false (World.after .b {} sampleProgram) ∧
    (ApiCall.asArray 0 : ApiCall Platform).Panics .b true (World.after .b {} sampleProgram) ∧
    (ApiCall.setTree 0 (.hashLength 65) : ApiCall Platform).Panics .b false (World.after .b {} sampleProgram) ∧
    (ApiCall.toHash 0 : ApiCall Platform).Panics .s true (World.after .s {} [ApiCall.newParams Platform.AVX2, .newJob 0 [1]]) := by
  decide +kernel

end Blake2
