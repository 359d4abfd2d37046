import Verif.Proofs.LeakErase
import Verif.Proofs.LeakMany
import Verif.Properties.Trace
import Verif.Properties.TraceTree
/-!
# What is revealed to an observer of branches and addresses: C41, C58

`m.log` is everything the run of `m` reveals: the outcome of every test and every position touched in an array or slice, in order, up to
the end or to a panic. `m.erase` is what the run does otherwise. Each theorem says both that two runs an observer should not be able to
tell apart have the same log, and that without its log the instrumented program is the program of the model.
-/
namespace Blake2
open Spec

variable {a : Alg}

/-! ## C58 -/

/-- C58, histories. Two histories of calls that differ only in the contents of keys, salts, personalizations and inputs and in the
values of tree parameters reveal the same. No assumption is made on the history: it may use a state that does not exist, pass
arguments out of range and panic. -/
theorem C58_histories (dbg : Bool) (ops ops' : List (Op Platform)) (h : IndistHistory a ops ops') :
    (execAllL dbg ([] : List (State a)) ops).log = (execAllL dbg ([] : List (State a)) ops').log ∧
    (execAllL dbg ([] : List (State a)) ops).erase = execAll dbg [] ops :=
  ⟨(execAllL_same dbg .nil h).log, execAllL_erase dbg [] ops⟩

/-- The hypothesis is met by two different histories with batches. -/
theorem sampleHistory_indist : IndistHistory .b sampleHistory
    [.create .AVX2 [.key [7, 8]], .create .Portable [.hashLength 20], .update 0 [9, 9, 9], .clone 0, .finalize 0,
     .updateMany [(2, List.replicate 500 3), (0, [5]), (1, List.replicate 129 4)], .setLastNode 1 true, .flush 1, .write 1 [6],
     .finalize 0, .finalize 1, .count 2] := by
  simp only [sampleHistory, IndistHistory, Op.Indist, IndistCalls, Setter.Indist]
  decide +kernel

/-- The logs are not trivial: one byte more is visible, and so is the length of the key. -/
example :
    (execAllL false ([] : List (State .s)) [.create .Portable [.key [1]], .update 0 [2], .finalize 0]).log ≠
      (execAllL false ([] : List (State .s)) [.create .Portable [.key [1]], .update 0 [2, 3], .finalize 0]).log ∧
    (execAllL false ([] : List (State .s)) [.create .Portable [.key [1]], .update 0 [2], .finalize 0]).log ≠
      (execAllL false ([] : List (State .s)) [.create .Portable [.key [1, 1]], .update 0 [2], .finalize 0]).log := by
  decide +kernel

/-- C58, histories of the tree variants. -/
theorem C58_tree_histories (dbg : Bool) (ops ops' : List (POp Platform)) (h : IndistPHistory ops ops') :
    (pexecAllL dbg ([] : List (PState a)) ops).log = (pexecAllL dbg ([] : List (PState a)) ops').log ∧
    (pexecAllL dbg ([] : List (PState a)) ops).erase = pexecAll dbg [] ops :=
  ⟨(pexecAllL_same dbg .nil h).log, pexecAllL_erase dbg [] ops⟩

theorem samplePHistory_indist : IndistPHistory samplePHistory
    [.create .AVX2 [.key [1, 4]], .create .Portable [.hashLength 20], .update 0 [7, 8, 9], .clone 0, .finalize 0,
     .update 2 (List.replicate 500 3), .write 0 (List.replicate 600 4), .flush 1, .write 1 [6],
     .finalize 0, .finalize 1, .count 2] := by
  simp only [samplePHistory, IndistPHistory, POp.Indist, IndistPCalls, PSetter.Indist]
  decide +kernel

/-- C58, one-shot hashing. -/
theorem C58_one_shot (plat : Platform) (calls calls' : List Setter) (x y : List Byte) (hc : IndistCalls a calls calls')
    (hx : x.length = y.length) :
    (do let p ← (Params.new a plat).buildL calls; p.hashL x).log = (do let p ← (Params.new a plat).buildL calls'; p.hashL y).log ∧
    (do let p ← (Params.new a plat).buildL calls; p.hashL x).erase = (do let p ← (Params.new a plat).build calls; p.hash x) := by
  refine ⟨((buildL_same PubParams.rfl hc).bind fun _ _ r => hashL_same r hx).log, ?_⟩
  simp only [Leaky.erase_bind, buildL_erase, hashL_erase]

example : IndistCalls .s [.key [1, 2], .salt [3], .fanout 2, .nodeOffset 7, .lastNode true]
    [.key [5, 6], .salt [4], .fanout 3, .nodeOffset 900, .lastNode true] := by
  simp only [IndistCalls, Setter.Indist]
  decide +kernel

/-- C58, one-shot hashing with the tree variants. -/
theorem C58_tree_one_shot (plat : Platform) (calls calls' : List PSetter) (x y : List Byte) (hc : IndistPCalls calls calls')
    (hx : x.length = y.length) :
    (do let p ← (PParams.new a plat).buildL calls; p.hashL x).log = (do let p ← (PParams.new a plat).buildL calls'; p.hashL y).log ∧
    (do let p ← (PParams.new a plat).buildL calls; p.hashL x).erase = (do let p ← (PParams.new a plat).build calls; p.hash x) := by
  refine ⟨((pbuildL_same PubPP.rfl hc).bind fun _ _ r => phashL_same r hx).log, ?_⟩
  simp only [Leaky.erase_bind, pbuildL_erase, phashL_erase]

example : IndistPCalls [.key [1, 2], .hashLength 7] [.key [5, 6], .hashLength 7] := by
  simp only [IndistPCalls, PSetter.Indist]
  decide +kernel

/-- Requests for `hash_many` that differ only in what should stay hidden. -/
def IndistReqs (a : Alg) : List (Platform × List Setter × List Byte) → List (Platform × List Setter × List Byte) → Prop
  | [], [] => True
  | r :: rs, q :: qs => r.1 = q.1 ∧ IndistCalls a r.2.1 q.2.1 ∧ r.2.2.length = q.2.2.length ∧ IndistReqs a rs qs
  | _, _ => False

theorem IndistReqs.all2 {rs qs : List (Platform × List Setter × List Byte)} (h : IndistReqs a rs qs) :
    All2 (fun r q => r.1 = q.1 ∧ IndistCalls a r.2.1 q.2.1 ∧ LEq r.2.2 q.2.2) rs qs := by
  induction rs generalizing qs with
  | nil => cases qs with
    | nil => exact .nil
    | cons => exact h.elim
  | cons r rs ih => cases qs with
    | nil => exact h.elim
    | cons q qs => exact .cons ⟨h.1, h.2.1, h.2.2.1⟩ (ih h.2.2.2)

/-- C58, batches: make a job for each request, run `hash_many` on all of them, read the hashes. -/
theorem C58_hash_many (dbg : Bool) (reqs reqs' : List (Platform × List Setter × List Byte)) (h : IndistReqs a reqs reqs') :
    (hashAllL (a := a) dbg reqs).log = (hashAllL (a := a) dbg reqs').log ∧
    (hashAllL (a := a) dbg reqs).erase = (do
      let jobs ← reqs.mapM fun q => do
        let p ← (Params.new a q.1).build q.2.1
        HashManyJob.new p q.2.2
      let jobs ← hashMany jobs
      jobs.mapM fun j => do
        let h ← j.toHash dbg
        h.asBytes) := by
  refine ⟨(hashAllL_same dbg h.all2).log, ?_⟩
  simp only [hashAllL, Leaky.erase_bind, Leaky.erase_mapList, buildL_erase, newL_erase, hashManyL_erase, toHashL_erase, asBytesL_erase]

example : IndistReqs .b [(.AVX2, [.key [1]], [2, 3]), (.AVX2, [], []), (.SSE41, [.hashLength 5], List.replicate 300 1)]
    [(.AVX2, [.key [9]], [4, 4]), (.AVX2, [], []), (.SSE41, [.hashLength 5], List.replicate 300 2)] := by
  simp only [IndistReqs, IndistCalls, Setter.Indist]
  decide +kernel

/-- C58, message authentication: build keyed parameters, absorb the message in pieces, finalize, compare with the tag received. What is
revealed depends on lengths only; not on the key, the message, the right tag, the tag received, or whether they agree. -/
theorem C58_verify (plat : Platform) (calls calls' : List Setter) (pieces pieces' : List (List Byte)) (tag tag' : List Byte)
    (hc : IndistCalls a calls calls') (hp : pieces.map List.length = pieces'.map List.length) (ht : tag.length = tag'.length) :
    (verifyTagL (a := a) plat calls pieces tag).log = (verifyTagL (a := a) plat calls' pieces' tag').log ∧
    (verifyTagL (a := a) plat calls pieces tag).erase = (do
      let p ← (Params.new a plat).build calls
      let s ← pieces.foldlM State.update p.toState
      let h ← s.finalize
      h.eqSlice tag) := by
  have hx : All2 LEq pieces pieces' := by
    induction pieces generalizing pieces' with
    | nil => cases pieces' with
      | nil => exact .nil
      | cons => simp at hp
    | cons x xs ih => cases pieces' with
      | nil => simp at hp
      | cons y ys =>
        simp only [List.map_cons, List.cons.injEq] at hp
        exact .cons hp.1 (ih _ hp.2)
  refine ⟨(verifyTagL_same plat hc hx ht).log, ?_⟩
  simp only [verifyTagL, Leaky.erase_bind, buildL_erase, withParamsL_erase, Leaky.ok_bind', absorbL_erase, finalizeL_erase, eqSliceL_erase,
    Params.toState]

/-- A right and a wrong tag under different keys reveal the same, although the answers differ. -/
example : ∃ tag : List Byte,
    (verifyTagL (a := .s) .Portable [.key [1]] [[2], [3]] tag).erase.toOption = some true ∧
    (verifyTagL (a := .s) .Portable [.key [7]] [[8], [9]] tag).erase.toOption = some false ∧
    (verifyTagL (a := .s) .Portable [.key [1]] [[2], [3]] tag).log = (verifyTagL (a := .s) .Portable [.key [7]] [[8], [9]] tag).log := by
  refine ⟨hash .s { Config.default .s with key := [1] } [2, 3], ?_⟩
  decide +kernel

/-! ### What is not hidden -/

theorem hexAtL_byte (b : Byte) : ∃ c d, Hash.hexAtL (b >>> 4).toNat = ⟨[.access (b >>> 4).toNat ((b >>> 4).toNat + 1)], .ok c⟩ ∧
    Hash.hexAtL (b &&& 0xf).toNat = ⟨[.access (b &&& 0xf).toNat ((b &&& 0xf).toNat + 1)], .ok d⟩ := by
  have h1 : (b >>> 4).toNat < 16 := by
    rw [BitVec.toNat_ushiftRight, Nat.shiftRight_eq_div_pow]
    have := b.isLt
    omega
  have h2 : (b &&& 0xf).toNat < 16 := by
    rw [BitVec.toNat_and]
    exact Nat.lt_of_le_of_lt Nat.and_le_right (by decide)
  refine ⟨Hash.hexTable[(b >>> 4).toNat], Hash.hexTable[(b &&& 0xf).toNat], ?_, ?_⟩
  · unfold Hash.hexAtL
    rw [dif_pos h1]; rfl
  · unfold Hash.hexAtL
    rw [dif_pos h2]; rfl

/-- What converting one byte reveals. -/
def hexLog (b : Byte) : List Leak :=
  [.access (b >>> 4).toNat ((b >>> 4).toNat + 1), .branch true, .access (b &&& 0xf).toNat ((b &&& 0xf).toNat + 1), .branch true]

theorem asBytesL_eq (g : Hash a) (h1 : g.bytes.length = a.outbytes) (h2 : g.len.toNat ≤ a.outbytes) :
    g.asBytesL = ⟨[.access 0 g.len.toNat, .branch true], .ok (g.bytes.take g.len.toNat)⟩ := by
  have h3 : g.len.toNat ≤ g.bytes.length := by omega
  unfold Hash.asBytesL sliceToL
  show Leaky.bind _ _ = _
  unfold Leaky.bind Leaky.reveal Leaky.branch
  simp only [if_pos h3, decide_eq_true h3]
  rfl

/-- The log of the conversion: two positions in the table of digits for each byte. -/
theorem bytesToHexL_log (bytes : List Byte) (s : List Char) (h : s.length + 2 * bytes.length ≤ 2 * a.outbytes) :
    (Hash.bytesToHexL a bytes s).log = bytes.flatMap hexLog := by
  induction bytes generalizing s with
  | nil => rfl
  | cons b bytes ih =>
    obtain ⟨c, d, hc, hd⟩ := hexAtL_byte b
    rw [List.length_cons] at h
    have p : ∀ (s : List Char) (c : Char), s.length < 2 * a.outbytes → Hash.pushL a s c = ⟨[.branch true], .ok (s ++ [c])⟩ := by
      intro s c hs
      unfold Hash.pushL Leaky.branch
      rw [if_pos hs, decide_eq_true hs]; rfl
    have e : Hash.bytesToHexL a (b :: bytes) s = (do
      let c ← Hash.hexAtL (b >>> 4).toNat
      let s ← Hash.pushL a s c
      let c ← Hash.hexAtL (b &&& 0xf).toNat
      let s ← Hash.pushL a s c
      Hash.bytesToHexL a bytes s) := rfl
    rw [e, hc, hd]
    show (Leaky.bind _ _).log = _
    unfold Leaky.bind
    dsimp only
    rw [p s c (by omega)]
    show _ ++ (Leaky.bind _ _).log = _
    unfold Leaky.bind
    dsimp only
    show _ ++ (_ ++ (Leaky.bind _ _).log) = _
    unfold Leaky.bind
    dsimp only
    rw [p _ d (by rw [List.length_append, List.length_singleton]; omega)]
    show _ ++ (_ ++ (_ ++ (Leaky.bind _ _).log)) = _
    unfold Leaky.bind
    dsimp only
    rw [ih _ (by simp only [List.length_append, List.length_singleton]; omega), List.flatMap_cons]
    rfl

/-- The limit of C58: `to_hex` looks the digits up in a table at positions given by the digest, so what it reveals determines the
digest. (Constant-time comparison exists so that a client need not compare hexadecimal text.) -/
theorem C58_to_hex_reveals (h k : Hash a) (hb : h.bytes.length = a.outbytes) (kb : k.bytes.length = a.outbytes)
    (hl : h.len.toNat ≤ a.outbytes) (kl : k.len.toNat ≤ a.outbytes) (e : h.toHexL.log = k.toHexL.log) :
    h.asBytes = k.asBytes ∧ h.toHexL.erase = h.toHex := by
  refine ⟨?_, toHexL_erase h⟩
  have s : ∀ g : Hash a, g.bytes.length = a.outbytes → g.len.toNat ≤ a.outbytes →
      g.toHexL.log = [.access 0 g.len.toNat, .branch true] ++ (g.bytes.take g.len.toNat).flatMap hexLog := by
    intro g h1 h2
    unfold Hash.toHexL
    rw [asBytesL_eq g h1 h2]
    show (Leaky.bind _ _).log = _
    unfold Leaky.bind
    dsimp only
    rw [bytesToHexL_log _ _ (by rw [List.length_take, List.length_nil]; omega)]
  rw [s h hb hl, s k kb kl] at e
  have e1 := List.append_inj e rfl
  have inj : ∀ xs ys : List Byte, xs.flatMap hexLog = ys.flatMap hexLog → xs = ys := by
    intro xs
    induction xs with
    | nil => intro ys e; cases ys with
      | nil => rfl
      | cons => cases e
    | cons x xs ih => intro ys e; cases ys with
      | nil => cases e
      | cons y ys =>
        rw [List.flatMap_cons, List.flatMap_cons] at e
        have e' := List.append_inj e rfl
        rw [ih ys e'.2]
        have e1 := e'.1
        simp only [hexLog, List.cons.injEq, Leak.access.injEq] at e1
        have hi : x >>> 4 = y >>> 4 := BitVec.eq_of_toNat_eq e1.1.1
        have lo : x &&& 0xf = y &&& 0xf := BitVec.eq_of_toNat_eq e1.2.2.1.1
        have join : ∀ z : Byte, z = ((z >>> 4) <<< 4) ||| (z &&& 0xf) := by
          intro z
          apply BitVec.eq_of_getElem_eq
          intro i hi
          have : i = 0 ∨ i = 1 ∨ i = 2 ∨ i = 3 ∨ i = 4 ∨ i = 5 ∨ i = 6 ∨ i = 7 := by omega
          rcases this with rfl | rfl | rfl | rfl | rfl | rfl | rfl | rfl <;> simp
        rw [join x, join y, hi, lo]
  have e2 := inj _ _ e1.2
  unfold Hash.asBytes sliceTo
  have e3 := e1.1
  simp only [List.cons.injEq, Leak.access.injEq] at e3
  rw [if_pos (by omega), if_pos (by omega), e2]

/-- Two digests of the same length that reveal differently. -/
example : (⟨List.replicate 64 1, 2⟩ : Hash .b).toHexL.log ≠ (⟨List.replicate 64 3, 2⟩ : Hash .b).toHexL.log := by decide +kernel

/-! ## C41 -/

/-- What comparing byte strings of lengths `n` and `m` reveals: whether the lengths differ, and if they do not, every position, once, in
order. -/
def comparison (n m : Nat) : List Leak :=
  if n = m then .branch false :: ((List.range n).flatMap fun i => [.branch true, .access i (i + 1)]) ++ [.branch false] else [.branch true]

theorem constantTimeLoopL_log (n : Nat) (ps : List (Byte × Byte)) (acc : Byte) :
    (constantTimeLoopL n ps acc).log =
      ((List.range' n ps.length).flatMap fun i => [.branch true, .access i (i + 1)]) ++ [.branch false] := by
  induction ps generalizing n acc with
  | nil => rfl
  | cons p ps ih =>
    show [Leak.branch true] ++ ([Leak.access n (n + 1)] ++ (constantTimeLoopL (n + 1) ps _).log) = _
    rw [ih, List.length_cons, List.range'_succ, List.flatMap_cons]
    rfl

/-- C41. The comparison takes the same branches and reads the same positions, each exactly once and in order, whatever the bytes
are and wherever they differ. -/
theorem C41_constant_time (x y : List Byte) :
    (constantTimeEqL x y).log = comparison x.length y.length ∧ (constantTimeEqL x y).erase = .ok (constantTimeEq x y) := by
  refine ⟨?_, constantTimeEqL_erase x y⟩
  unfold constantTimeEqL Leaky.branch comparison
  by_cases h : x.length = y.length
  · have h' : ¬ (x.length != y.length) = true := by simp [h]
    rw [if_pos h]
    simp only [if_neg h', decide_eq_false h']
    show Leak.branch false :: (Leaky.bind _ _).log = _
    unfold Leaky.bind
    have e := constantTimeEqL_erase x y
    have hl : ∀ ps acc n, ∃ r, (constantTimeLoopL n ps acc).erase = .ok r := by
      intro ps
      induction ps with
      | nil => intro acc n; exact ⟨acc, rfl⟩
      | cons p ps ih => intro acc n; exact ih _ _
    obtain ⟨r, hr⟩ := hl (x.zip y) 0 0
    rw [hr]
    show Leak.branch false :: ((constantTimeLoopL 0 (x.zip y) 0).log ++ []) = _
    rw [List.append_nil, constantTimeLoopL_log, List.length_zip, ← h, Nat.min_self, List.range_eq_range']
    rfl
  · have h' : (x.length != y.length) = true := by simpa using h
    rw [if_neg h]
    simp only [if_pos h', decide_eq_true h']
    rfl

/-- C41 for the operators of `Hash`: comparing hashes with hashes, and with bytes. The array behind a hash has `OUTBYTES` bytes. -/
theorem C41_hash_eq (h k : Hash a) (x : List Byte) (hb : h.bytes.length = a.outbytes) (kb : k.bytes.length = a.outbytes)
    (hl : h.len.toNat ≤ a.outbytes) (kl : k.len.toNat ≤ a.outbytes) :
    (h.eqHashL k).log = [.access 0 h.len.toNat, .branch true, .access 0 k.len.toNat, .branch true] ++ comparison h.len.toNat k.len.toNat ∧
    (h.eqSliceL x).log = [.access 0 h.len.toNat, .branch true] ++ comparison h.len.toNat x.length ∧
    (h.eqHashL k).erase = h.eqHash k ∧ (h.eqSliceL x).erase = h.eqSlice x := by
  refine ⟨?_, ?_, eqHashL_erase h k, eqSliceL_erase h x⟩
  · unfold Hash.eqHashL
    rw [asBytesL_eq h hb hl, asBytesL_eq k kb kl]
    show _ ++ (_ ++ (constantTimeEqL _ _).log) = _
    rw [(C41_constant_time _ _).1, List.length_take, List.length_take, Nat.min_eq_left (by omega), Nat.min_eq_left (by omega)]
    rfl
  · unfold Hash.eqSliceL
    rw [asBytesL_eq h hb hl]
    show _ ++ (constantTimeEqL _ _).log = _
    rw [(C41_constant_time _ _).1, List.length_take, Nat.min_eq_left (by omega)]

example : comparison 2 2 = [.branch false, .branch true, .access 0 1, .branch true, .access 1 2, .branch false] := by decide

example : (⟨List.replicate 64 1, 32⟩ : Hash .b).bytes.length = Alg.outbytes .b ∧
    ((⟨List.replicate 64 1, 32⟩ : Hash .b).eqSliceL (List.replicate 32 2)).log =
      ((⟨List.replicate 64 1, 32⟩ : Hash .b).eqSliceL (List.replicate 32 1)).log := by decide +kernel

end Blake2
