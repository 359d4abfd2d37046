import Verif.Model.Target
import Verif.Proofs.Bytes
/-!
# The functions of `Model/Target.lean` are those of the rest of the model

`from_le_bytes` and `to_le_bytes`, as the standard library defines them, give the same on either kind of target.
-/
namespace Blake2.Target
open Blake2.Spec

theorem leNat_array (n : Nat) (bytes : List Byte) : leNat (array n bytes) = leNat bytes % 256 ^ n := by
  rw [array, leNat_take, leNat_append, leNat_replicate_zero, Nat.mul_zero, Nat.add_zero]

theorem array_length (n : Nat) (bytes : List Byte) : (array n bytes).length = n := by
  simp only [array, List.length_take, List.length_append, List.length_replicate]
  omega

theorem two_pow_eight_mul (n : Nat) : 2 ^ (8 * n) = 256 ^ n := by rw [Nat.pow_mul]

theorem swapBytes_prefix {n : Nat} (x : BitVec (8 * n)) (k : Nat) (hk : k ≤ n) :
    ((List.range k).foldl (fun (y : BitVec (8 * n)) i => (y <<< 8) ||| ((x >>> (8 * i)) &&& 0xff)) 0).toNat
      = leNat (leBytes k x.toNat).reverse := by
  induction k with
  | zero => simp [leBytes, leNat]
  | succ k ih =>
    rw [leBytes_eq_range, List.range_succ, List.foldl_append, List.map_append, List.reverse_append, ← leBytes_eq_range]
    have ih := ih (by omega)
    generalize (List.range k).foldl (fun (y : BitVec (8 * n)) i => (y <<< 8) ||| ((x >>> (8 * i)) &&& 0xff)) 0 = y at ih
    have hy : y.toNat < 256 ^ k := by
      have h := leNat_lt (leBytes k x.toNat).reverse
      rw [List.length_reverse, leBytes_length] at h
      omega
    have hle : 256 ^ (k + 1) ≤ 256 ^ n := Nat.pow_le_pow_right (by omega) hk
    have hp : 256 ^ (k + 1) = 256 * 256 ^ k := by rw [Nat.pow_succ, Nat.mul_comm]
    have hff : (0xff : BitVec (8 * n)).toNat = 2 ^ 8 - 1 := by
      show 255 % 2 ^ (8 * n) = 255
      have : 1 ≤ 256 ^ k := Nat.one_le_pow _ _ (by omega)
      rw [two_pow_eight_mul, Nat.mod_eq_of_lt (by omega)]
    simp only [List.foldl_cons, List.foldl_nil, List.map_cons, List.map_nil, List.reverse_cons, List.reverse_nil, List.nil_append,
      List.cons_append, leNat, BitVec.toNat_or, BitVec.toNat_and, BitVec.toNat_shiftLeft, BitVec.toNat_ushiftRight, hff,
      Nat.and_two_pow_sub_one_eq_mod, BitVec.toNat_ofNat, ← ih]
    rw [two_pow_eight_mul, Nat.mod_eq_of_lt (by rw [Nat.shiftLeft_eq]; omega),
      ← Nat.shiftLeft_add_eq_or_of_lt (Nat.mod_lt _ (by decide)), Nat.shiftLeft_eq, Nat.shiftRight_eq_div_pow, two_pow_eight_mul]
    omega

theorem swapBytes_toNat {n : Nat} (x : BitVec (8 * n)) : (swapBytes n x).toNat = leNat (leBytes n x.toNat).reverse :=
  swapBytes_prefix x n (Nat.le_refl n)

theorem fromLeBytes_eq' (e : ByteOrder) (n : Nat) (bytes : List Byte) :
    fromLeBytes e (8 * n) n bytes = fromLE (8 * n) bytes := by
  have lt (l : List Byte) (h : l.length = n) : leNat l % 2 ^ (8 * n) = leNat l := by
    have := leNat_lt l
    rw [two_pow_eight_mul, Nat.mod_eq_of_lt (by rw [h] at this; exact this)]
  apply BitVec.eq_of_toNat_eq
  cases e with
  | little =>
    simp only [fromLeBytes, le, fromNeBytes, fromLE, BitVec.toNat_ofNat, leNat_array, two_pow_eight_mul, Nat.mod_mod]
  | big =>
    simp only [fromLeBytes, le, fromNeBytes, fromLE, swapBytes_toNat, BitVec.toNat_ofNat]
    have hl : (array n bytes).reverse.length = n := by rw [List.length_reverse, array_length]
    rw [lt _ hl]
    have := leBytes_leNat (array n bytes).reverse
    rw [hl] at this
    rw [this, List.reverse_reverse, leNat_array, two_pow_eight_mul]

theorem toNeBytes_big {w : Nat} (n : Nat) (x : BitVec w) : toNeBytes .big n x = (toLE n x).reverse := by
  apply List.ext_getElem
  · simp [toNeBytes]
  · intro i h1 h2
    simp [toNeBytes, toLE, List.getElem_reverse]

theorem toLeBytes_eq' (e : ByteOrder) (n : Nat) (x : BitVec (8 * n)) : toLeBytes e n x = toLE n x := by
  cases e with
  | little => rfl
  | big =>
    have h := leBytes_leNat (leBytes n x.toNat).reverse
    rw [List.length_reverse, leBytes_length] at h
    rw [toLeBytes, toNeBytes_big, toLE_eq, toLE_eq]
    show (leBytes n (swapBytes n x).toNat).reverse = _
    rw [swapBytes_toNat, h, List.reverse_reverse]

variable {a : Alg} (e : Arch)

theorem fromLeBytes_eq (a : Alg) (bytes : List Byte) : fromLeBytes e.order a.w a.wb bytes = fromLE a.w bytes := by
  cases a
  · exact fromLeBytes_eq' e.order 8 bytes
  · exact fromLeBytes_eq' e.order 4 bytes

theorem toLeBytes_eq (a : Alg) (x : Word a) : toLeBytes e.order a.wb x = toLE a.wb x := by
  cases a
  · exact toLeBytes_eq' e.order 8 x
  · exact toLeBytes_eq' e.order 4 x

theorem msgWords_eq (a : Alg) : msgWords e a = Portable.msgWords a := by
  funext block
  simp only [msgWords, Portable.msgWords, fromLeBytes_eq]

/-- `compress_block`, given how the message is read. -/
def blockWith (a : Alg) (read : List Byte → Vector (Word a) 16) : CompressBlock a := fun block words count lastBlock lastNode =>
  let v : Vector (Word a) 16 := #v[
    words[0], words[1], words[2], words[3], words[4], words[5], words[6], words[7],
    (IV a)[0], (IV a)[1], (IV a)[2], (IV a)[3],
    (IV a)[4] ^^^ countLow a count,
    (IV a)[5] ^^^ countHigh a count,
    (IV a)[6] ^^^ lastBlock,
    (IV a)[7] ^^^ lastNode]
  let m := read block
  let v := (Portable.roundNumbers a).foldl (Portable.round a m) v
  #v[words[0] ^^^ (v[0] ^^^ v[8]), words[1] ^^^ (v[1] ^^^ v[9]),
     words[2] ^^^ (v[2] ^^^ v[10]), words[3] ^^^ (v[3] ^^^ v[11]),
     words[4] ^^^ (v[4] ^^^ v[12]), words[5] ^^^ (v[5] ^^^ v[13]),
     words[6] ^^^ (v[6] ^^^ v[14]), words[7] ^^^ (v[7] ^^^ v[15])]

theorem compressBlock_eq (a : Alg) : compressBlock e a = Portable.compressBlock a := by
  have h1 : compressBlock e a = blockWith a (msgWords e a) := by delta compressBlock blockWith; rfl
  have h2 : Portable.compressBlock a = blockWith a (Portable.msgWords a) := by delta Portable.compressBlock blockWith; rfl
  rw [h1, h2, msgWords_eq]

theorem compress1_eq (a : Alg) (plat : Platform) : compress1 e a plat = Blake2.compress1 a plat := by
  match a, plat with
  | .b, .AVX2 => rfl
  | .b, .SSE41 => exact congrArg (compress1Loop .b · arrayRef) (compressBlock_eq e .b)
  | .b, .Portable => exact congrArg (compress1Loop .b · arrayRef) (compressBlock_eq e .b)
  | .s, .AVX2 => rfl
  | .s, .SSE41 => rfl
  | .s, .Portable => exact congrArg (compress1Loop .s · arrayRef) (compressBlock_eq e .s)

theorem toWords_eq : (toWords e : Params a → _) = Params.toWords := by
  funext p
  cases a
  · simp only [toWords, Params.toWords, fromLeBytes_eq' e.order 8 _]
  · simp only [toWords, Params.toWords, fromLeBytes_eq' e.order 4 _]

theorem stateWordsToBytes_eq (a : Alg) : stateWordsToBytes e a = Blake2.stateWordsToBytes a := by
  funext w
  simp only [stateWordsToBytes, Blake2.stateWordsToBytes, toLeBytes_eq]

theorem withParams_eq : (withParams e : Params a → _) = State.withParams := by
  unfold withParams State.withParams
  rw [toWords_eq]

theorem compressBufferIfPossible_eq : (compressBufferIfPossible e : State a → _) = State.compressBufferIfPossible := by
  unfold compressBufferIfPossible State.compressBufferIfPossible
  simp only [compress1_eq]

theorem update_eq : (update e : State a → _) = State.update := by
  unfold update State.update
  simp only [compress1_eq, compressBufferIfPossible_eq]

theorem write_eq : (write e : State a → _) = State.write := by
  unfold write State.write
  rw [update_eq]

theorem finalize_eq : (finalize e : State a → _) = State.finalize := by
  unfold finalize State.finalize
  simp only [compress1_eq, stateWordsToBytes_eq]

theorem hash_eq : (hash e : Params a → _) = Params.hash := by
  unfold hash Params.hash
  simp only [compress1_eq, stateWordsToBytes_eq, toWords_eq, update_eq, finalize_eq, withParams_eq, Params.toState]

section Many
variable {ι E : Type} [DecidableEq ι]

theorem runOne_eq : (runOne e : Source a ι E → _) = Many.runOne := by
  unfold runOne Many.runOne
  simp only [compress1_eq]

theorem runQueue_eq (src : Source a ι E) (imp : Platform) (fin : Bool) (stride : Stride) (mem : ι → E) (queue : List ι) :
    runQueue e src imp fin stride mem queue = Many.runQueue src imp fin stride mem queue := by
  induction queue generalizing mem with
  | nil => rfl
  | cons i queue ih =>
    simp only [runQueue, Many.runQueue, runOne_eq, ih]
    rfl

theorem compressMany_eq : (compressMany e : Source a ι E → _) = Many.compressMany := by
  funext src imp fin stride mem queue
  have other : Many.compressMany src .Portable fin stride mem queue = Many.runQueue src .Portable fin stride mem queue := by
    have hd : implDegree a .Portable = 1 := by cases a <;> rfl
    have hh : ¬ 1 ≥ hiDegree a := by cases a <;> decide
    have hl : ¬ 1 ≥ loDegree a := by cases a <;> decide
    simp only [Many.compressMany, Many.level, hd, hh, hl, if_false]
    rfl
  unfold compressMany
  split
  · rw [other, runQueue_eq]
  · unfold Many.compressMany
    simp only [runOne_eq, runQueue_eq]

end Many

theorem updateManyPull_eq {ι : Type} : (updateManyPull (ι := ι) e : ι → List Byte → State a → _) = Blake2.updateManyPull := by
  unfold updateManyPull Blake2.updateManyPull
  simp only [compressBufferIfPossible_eq]

theorem updateMany_eq : (updateMany e : List (State a × List Byte) → _) = Blake2.updateMany := by
  unfold updateMany Blake2.updateMany
  simp only [compressMany_eq, updateManyPull_eq]
  rfl

theorem newJob_eq : (newJob e : Params a → _) = HashManyJob.new := by
  unfold newJob HashManyJob.new
  simp only [compress1_eq, toWords_eq]

theorem toHash_eq (dbg : Bool) : (toHash e dbg : HashManyJob a → _) = HashManyJob.toHash dbg := by
  unfold toHash HashManyJob.toHash
  simp only [stateWordsToBytes_eq]

theorem hashMany_eq : (hashMany e : List (HashManyJob a) → _) = Blake2.hashMany := by
  unfold hashMany Blake2.hashMany
  simp only [compressMany_eq]
  rfl

theorem runBatch_eq : (runBatch e : List (HashManyJob a) → _) = Blake2.runBatch := by
  unfold runBatch Blake2.runBatch
  simp only [hashMany_eq]

theorem compressLeaves_eq : (compressLeaves e : (Fin (parDegree a) → _) → _) = Blake2.compressLeaves := by
  unfold compressLeaves Blake2.compressLeaves
  simp only [compressMany_eq]

theorem finalizeRootWords_eq : (finalizeRootWords e : LeafWords a → _) = Blake2.finalizeRootWords := by
  unfold finalizeRootWords Blake2.finalizeRootWords
  simp only [compress1_eq, stateWordsToBytes_eq, toLeBytes_eq]

theorem treeToWords_eq : (treeToWords e : PParams a → _) = PParams.toWords := by
  unfold treeToWords PParams.toWords leafWordsOf PParams.leafWordsOf rootWordsOf PParams.rootWordsOf
  simp only [toWords_eq]

theorem treeWithParams_eq : (treeWithParams e : PParams a → _) = PState.withParams := by
  unfold treeWithParams PState.withParams
  simp only [treeToWords_eq]

theorem compressToLeaves_eq : (compressToLeaves e : PState a → _) = PState.compressToLeaves := by
  unfold compressToLeaves PState.compressToLeaves
  simp only [compressLeaves_eq]

theorem treeUpdate_eq : (treeUpdate e : PState a → _) = PState.update := by
  unfold treeUpdate PState.update updateBuffered PState.updateBuffered updateBulk PState.updateBulk
  simp only [compressToLeaves_eq]

theorem treeWrite_eq : (treeWrite e : PState a → _) = PState.write := by
  unfold treeWrite PState.write
  rw [treeUpdate_eq]

theorem treeFinalize_eq : (treeFinalize e : PState a → _) = PState.finalize := by
  unfold treeFinalize PState.finalize
  simp only [compressLeaves_eq, finalizeRootWords_eq]

theorem treeHash_eq : (treeHash e : PParams a → _) = PParams.hash := by
  unfold treeHash PParams.hash
  simp only [compressLeaves_eq, finalizeRootWords_eq, treeToWords_eq, treeWithParams_eq, treeUpdate_eq, treeFinalize_eq,
    PParams.toState]

theorem opExec_eq (dbg : Bool) (ss : List (State a)) (op : Op Platform) : opExec e dbg ss op = op.exec dbg ss := by
  cases op <;> simp only [opExec, Op.exec, update_eq, withParams_eq, updateMany_eq, finalize_eq, write_eq, Params.toState] <;> rfl

theorem treeOpExec_eq (dbg : Bool) (ss : List (PState a)) (op : POp Platform) : treeOpExec e dbg ss op = op.exec dbg ss := by
  cases op <;>
    simp only [treeOpExec, POp.exec, treeUpdate_eq, treeWithParams_eq, treeFinalize_eq, treeWrite_eq, PParams.toState] <;> rfl

theorem exec_eq (dbg : Bool) (m : Mem a) (c : ApiCall Platform) : exec e dbg m c = c.exec dbg m := by
  cases c <;>
    simp only [exec, ApiCall.exec, hash_eq, withParams_eq, opExec_eq, finalize_eq, newJob_eq, hashMany_eq, toHash_eq, treeHash_eq,
        treeWithParams_eq, treeOpExec_eq, treeFinalize_eq,
      runBatch_eq, blake2, blake2p, State.new, PState.new, Params.toState, PParams.toState]

theorem run_eq (dbg : Bool) (m : Mem a) (prog : List (ApiCall Platform)) : run e dbg m prog = m.run dbg prog := by
  induction prog generalizing m with
  | nil => rfl
  | cons c cs ih => simp only [run, Mem.run, exec_eq, ih]

end Blake2.Target
