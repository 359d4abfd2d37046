import Verif.Proofs.StateInv
import Verif.Model.Api
/-! # What a `Params` value represents -/
namespace Blake2
open Spec

variable {a : Alg}

/-- The configuration a `Params` value stands for. -/
structure Rep (a : Alg) (c : Config) (p : Params a) : Prop where
  hashLength : p.hashLength = BitVec.ofNat 8 c.digestLength
  keyLength : p.keyLength = BitVec.ofNat 8 c.key.length
  keyBlock : p.keyBlock = pad a.bb c.key
  salt : p.salt = pad a.saltbytes c.salt
  personal : p.personal = pad a.personalbytes c.personal
  fanout : p.fanout = BitVec.ofNat 8 c.fanout
  maxDepth : p.maxDepth = BitVec.ofNat 8 c.maxDepth
  maxLeafLength : p.maxLeafLength = BitVec.ofNat 32 c.leafLength
  nodeOffset : p.nodeOffset = BitVec.ofNat 64 c.nodeOffset
  nodeDepth : p.nodeDepth = BitVec.ofNat 8 c.nodeDepth
  innerHashLength : p.innerHashLength = BitVec.ofNat 8 c.innerLength
  lastNode : p.lastNode = c.lastNode
  valid : c.Valid a

theorem rep_new (a : Alg) (plat : Platform) : Rep a (Config.default a) (Params.new a plat) := by
  cases a <;> exact ⟨rfl, rfl, rfl, rfl, rfl, rfl, rfl, rfl, rfl, rfl, rfl, rfl, by unfold Config.Valid Config.default; decide⟩

theorem copyRange_pad (n : Nat) (x : List Byte) (h : x.length ≤ n) :
    copyRange (List.replicate n 0) 0 x.length x = .ok (pad n x) := by
  rw [copyRange, if_pos ⟨Nat.zero_le _, by simpa using h, by omega⟩]
  simp [pad]

theorem keybytes_le (a : Alg) : a.keybytes ≤ a.bb := by cases a <;> decide

/-- A call in range succeeds, does what is documented, and leaves the implementation alone. -/
theorem rep_run {c : Config} {p : Params a} (h : Rep a c p) (call : Setter) (hr : call.InRange a) :
    ∃ p', call.run p = .ok p' ∧ Rep a (call.apply c) p' ∧ p'.implementation = p.implementation := by
  obtain ⟨h1, h2, h3, h4, h5, h6, h7, h8, h9, h10, h11, h12, v⟩ := h
  obtain ⟨v1, v2, v3, v4, v5, v6, v7, v8, v9, v10, v11⟩ := v
  have hmo := maxOut_eq a
  have hsb := saltBytes_eq a
  have hkb : a.keybytes = a.outbytes := rfl
  cases call <;> simp only [Setter.InRange] at hr <;> simp only [Setter.run, Setter.apply]
  case hashLength n =>
    simp only [Params.setHashLength, rassert, hmo ▸ hr.2, hr.1, decide_true, Bool.and_self, if_true, bind, Except.bind]
    exact ⟨_, rfl, ⟨rfl, h2, h3, h4, h5, h6, h7, h8, h9, h10, h11, h12, hr.1, hr.2, v3, v4, v5, v6, v7, v8, v9, v10, v11⟩, rfl⟩
  case key k =>
    have hk : k.length ≤ a.keybytes := by rw [hkb, ← hmo]; exact hr
    simp only [Params.setKey, rassert, hk, decide_true, if_true, bind, Except.bind,
      copyRange_pad _ _ (Nat.le_trans hk (keybytes_le a))]
    exact ⟨_, rfl, ⟨h1, rfl, rfl, h4, h5, h6, h7, h8, h9, h10, h11, h12, v1, v2, hr, v4, v5, v6, v7, v8, v9, v10, v11⟩, rfl⟩
  case salt k =>
    have hk : k.length ≤ a.saltbytes := by rw [← hsb]; exact hr
    simp only [Params.setSalt, rassert, hk, decide_true, if_true, bind, Except.bind, copyRange_pad _ _ hk]
    exact ⟨_, rfl, ⟨h1, h2, h3, rfl, h5, h6, h7, h8, h9, h10, h11, h12, v1, v2, v3, v4, v5, v6, v7, v8, v9, hr, v11⟩, rfl⟩
  case personal k =>
    have hk : k.length ≤ a.personalbytes := by show _ ≤ a.saltbytes; rw [← hsb]; exact hr
    simp only [Params.setPersonal, rassert, hk, decide_true, if_true, bind, Except.bind, copyRange_pad _ _ hk]
    exact ⟨_, rfl, ⟨h1, h2, h3, h4, rfl, h6, h7, h8, h9, h10, h11, h12, v1, v2, v3, v4, v5, v6, v7, v8, v9, v10, hr⟩, rfl⟩
  case fanout n =>
    exact ⟨_, rfl, ⟨h1, h2, h3, h4, h5, by simp, h7, h8, h9, h10, h11, h12, v1, v2, v3, n.isLt, v5, v6, v7, v8, v9, v10, v11⟩, rfl⟩
  case maxDepth n =>
    exact ⟨_, rfl, ⟨h1, h2, h3, h4, h5, h6, by simp, h8, h9, h10, h11, h12, v1, v2, v3, v4, n.isLt, v6, v7, v8, v9, v10, v11⟩, rfl⟩
  case maxLeafLength n =>
    exact ⟨_, rfl, ⟨h1, h2, h3, h4, h5, h6, h7, by simp, h9, h10, h11, h12, v1, v2, v3, v4, v5, n.isLt, v7, v8, v9, v10, v11⟩, rfl⟩
  case nodeOffset n =>
    have hrep : Rep a { c with nodeOffset := n.toNat } { p with nodeOffset := n } :=
      ⟨h1, h2, h3, h4, h5, h6, h7, h8, by simp, h10, h11, h12, v1, v2, v3, v4, v5, v6, hr, v8, v9, v10, v11⟩
    cases a
    · exact ⟨_, rfl, hrep, rfl⟩
    · have : n.toNat < 1 <<< 48 := hr
      simp only [Params.setNodeOffset, rassert, this, decide_true, if_true, bind, Except.bind]
      exact ⟨_, rfl, hrep, rfl⟩
  case nodeDepth n =>
    exact ⟨_, rfl, ⟨h1, h2, h3, h4, h5, h6, h7, h8, h9, by simp, h11, h12, v1, v2, v3, v4, v5, v6, v7, n.isLt, v9, v10, v11⟩, rfl⟩
  case innerHashLength n =>
    simp only [Params.setInnerHashLength, rassert, hmo ▸ hr, decide_true, if_true, bind, Except.bind]
    exact ⟨_, rfl, ⟨h1, h2, h3, h4, h5, h6, h7, h8, h9, h10, rfl, h12, v1, v2, v3, v4, v5, v6, v7, v8, hr, v10, v11⟩, rfl⟩
  case lastNode b =>
    exact ⟨_, rfl, ⟨h1, h2, h3, h4, h5, h6, h7, h8, h9, h10, h11, rfl, v1, v2, v3, v4, v5, v6, v7, v8, v9, v10, v11⟩, rfl⟩

/-- A call out of range panics. -/
theorem run_panics (p : Params a) (call : Setter) (hr : ¬ call.InRange a) : call.run p = .error .panic := by
  have hmo := maxOut_eq a
  have hsb := saltBytes_eq a
  have hkb : a.keybytes = a.outbytes := rfl
  cases call <;> simp only [Setter.InRange, not_true] at hr <;> simp only [Setter.run]
  case hashLength n =>
    rw [hmo] at hr
    have : (decide (1 ≤ n) && decide (n ≤ a.outbytes)) = false := by
      rw [← Bool.decide_and]; simpa using hr
    rw [Params.setHashLength, rassert, this]; rfl
  case key k =>
    rw [hmo, ← hkb] at hr
    rw [Params.setKey, rassert, decide_eq_false hr]; rfl
  case salt k =>
    rw [hsb] at hr
    rw [Params.setSalt, rassert, decide_eq_false hr]; rfl
  case personal k =>
    rw [hsb] at hr
    have hr' : ¬ k.length ≤ a.personalbytes := hr
    rw [Params.setPersonal, rassert, decide_eq_false hr']; rfl
  case nodeOffset n =>
    cases a
    · exact absurd n.isLt hr
    · have hr' : ¬ n.toNat < 1 <<< 48 := hr
      rw [Params.setNodeOffset, rassert, decide_eq_false hr']; rfl
  case innerHashLength n =>
    rw [hmo] at hr
    rw [Params.setInnerHashLength, rassert, decide_eq_false hr]; rfl

theorem rep_build {c : Config} {p : Params a} (h : Rep a c p) (calls : List Setter) (hr : ∀ x ∈ calls, x.InRange a) :
    ∃ p', p.build calls = .ok p' ∧ Rep a (calls.foldl Setter.apply c) p' ∧ p'.implementation = p.implementation := by
  induction calls generalizing c p with
  | nil => exact ⟨p, rfl, h, rfl⟩
  | cons x xs ih =>
    obtain ⟨p1, h1, h2, h3⟩ := rep_run h x (hr x (by simp))
    obtain ⟨p2, h4, h5, h6⟩ := ih h2 (fun y hy => hr y (by simp [hy]))
    refine ⟨p2, ?_, h5, h6.trans h3⟩
    rw [Params.build, List.foldlM_cons, h1]; exact h4

theorem build_panics (p : Params a) (calls : List Setter) (hr : ∃ x ∈ calls, ¬ x.InRange a)
    (c : Config) (h : Rep a c p) : p.build calls = .error .panic := by
  induction calls generalizing c p with
  | nil => simp at hr
  | cons x xs ih =>
    rw [Params.build, List.foldlM_cons]
    by_cases hx : x.InRange a
    · obtain ⟨p1, h1, h2, _⟩ := rep_run h x hx
      rw [h1]
      have : ∃ y ∈ xs, ¬ y.InRange a := by
        obtain ⟨y, hy, hy'⟩ := hr
        rcases List.mem_cons.1 hy with rfl | hy
        · exact absurd hx hy'
        · exact ⟨y, hy, hy'⟩
      exact ih p1 this _ h2
    · rw [run_panics p x hx]; rfl

/-! ## The parameter block -/

theorem nat_xor_eq_add {k n : Nat} (m : Nat) (h : n < 2 ^ k) : n ^^^ (m * 2 ^ k) = n + m * 2 ^ k := by
  rw [Nat.mul_comm, Nat.add_comm, Nat.two_pow_add_eq_or_of_lt h]
  apply Nat.eq_of_testBit_eq
  intro i
  rw [Nat.testBit_xor, Nat.testBit_or, Nat.testBit_two_pow_mul]
  by_cases hi : i ≥ k
  · have : n.testBit i = false := Nat.testBit_lt_two_pow (Nat.lt_of_lt_of_le h (Nat.pow_le_pow_right (by decide) hi))
    simp [this]
  · simp [hi]

/-- Or-ing in a field above the bits in use. -/
theorem xor_field {w j : Nat} (k n : Nat) (y : BitVec j) (hn : n < 2 ^ k) (hw : k + j ≤ w) :
    BitVec.ofNat w n ^^^ y.setWidth w <<< k = BitVec.ofNat w (n + y.toNat * 2 ^ k) := by
  apply BitVec.eq_of_toNat_eq
  have hy := y.isLt
  have h1 : 2 ^ j * 2 ^ k = 2 ^ (k + j) := by rw [← Nat.pow_add, Nat.add_comm]
  have h2 : 2 ^ (k + j) ≤ 2 ^ w := Nat.pow_le_pow_right (by decide) hw
  have h3 : (y.toNat + 1) * 2 ^ k ≤ 2 ^ j * 2 ^ k := Nat.mul_le_mul_right _ hy
  rw [Nat.add_mul, Nat.one_mul] at h3
  have h4 : y.toNat < 2 ^ w := Nat.lt_of_lt_of_le hy (Nat.pow_le_pow_right (by decide) (by omega))
  rw [BitVec.toNat_xor, BitVec.toNat_shiftLeft, BitVec.toNat_setWidth, BitVec.toNat_ofNat, BitVec.toNat_ofNat,
    Nat.shiftLeft_eq, Nat.mod_eq_of_lt h4, Nat.mod_eq_of_lt (a := n) (by omega), Nat.mod_eq_of_lt (by omega),
    Nat.mod_eq_of_lt (by omega), nat_xor_eq_add _ hn]

theorem setWidth_ofNat_toNat {w j : Nat} (y : BitVec j) : y.setWidth w = BitVec.ofNat w y.toNat := by
  apply BitVec.eq_of_toNat_eq; simp

theorem pad_length (n : Nat) (x : List Byte) (h : x.length ≤ n) : (pad n x).length = n := by
  simp [pad]; omega

theorem flatten_block (n : Nat) (Ls : List (List Byte)) (h : ∀ l ∈ Ls, l.length = n) (i : Nat) (hi : i < Ls.length) :
    (Ls.flatten.drop (i * n)).take n = Ls[i] := by
  induction Ls generalizing i with
  | nil => simp at hi
  | cons x xs ih =>
    have hx := h x (by simp)
    cases i with
    | zero => simp [← hx]
    | succ i =>
      have e : (i + 1) * n = x.length + i * n := by rw [Nat.add_mul, Nat.one_mul, hx, Nat.add_comm]
      rw [e, List.flatten_cons, List.drop_append, List.drop_eq_nil_of_le (Nat.le_add_right _ _), List.nil_append,
        Nat.add_sub_cancel_left, List.getElem_cons_succ]
      exact ih (fun l hl => h l (by simp [hl])) i (by simpa using hi)

/-- The initial chaining value, from the eight words of the parameter block. -/
theorem initH_of_blocks (c : Config) (b0 b1 b2 b3 b4 b5 b6 b7 : List Byte)
    (hb : paramBlock a c = [b0, b1, b2, b3, b4, b5, b6, b7].flatten)
    (hl : ∀ l ∈ [b0, b1, b2, b3, b4, b5, b6, b7], l.length = a.wb) :
    initH a c = #v[(iv a)[0] ^^^ BitVec.ofNat _ (leNat b0), (iv a)[1] ^^^ BitVec.ofNat _ (leNat b1),
      (iv a)[2] ^^^ BitVec.ofNat _ (leNat b2), (iv a)[3] ^^^ BitVec.ofNat _ (leNat b3),
      (iv a)[4] ^^^ BitVec.ofNat _ (leNat b4), (iv a)[5] ^^^ BitVec.ofNat _ (leNat b5),
      (iv a)[6] ^^^ BitVec.ofNat _ (leNat b6), (iv a)[7] ^^^ BitVec.ofNat _ (leNat b7)] := by
  have key := fun i hi => flatten_block a.wb _ hl i hi
  rw [vec8_eta (initH a c)]
  have h0 := key 0 (by simp)
  have h1 := key 1 (by simp)
  have h2 := key 2 (by simp)
  have h3 := key 3 (by simp)
  have h4 := key 4 (by simp)
  have h5 := key 5 (by simp)
  have h6 := key 6 (by simp)
  have h7 := key 7 (by simp)
  rw [← hb] at h0 h1 h2 h3 h4 h5 h6 h7
  simp only [initH, Vector.getElem_ofFn, Fin.getElem_fin, h0, h1, h2, h3, h4, h5, h6, h7]
  rfl

/-- `to_words` is the IV xored with the parameter block. -/
theorem toWords_eq {c : Config} {p : Params a} (h : Rep a c p) : p.toWords = initH a c := by
  obtain ⟨h1, h2, h3, h4, h5, h6, h7, h8, h9, h10, h11, h12, v⟩ := h
  obtain ⟨v1, v2, v3, v4, v5, v6, v7, v8, v9, v10, v11⟩ := v
  have hlf : leNat (leBytes 4 c.leafLength) = p.maxLeafLength.toNat := by
    rw [leNat_leBytes, h8, BitVec.toNat_ofNat]
  have b1 := p.hashLength.isLt
  have b2 := p.keyLength.isLt
  have b3 := p.fanout.isLt
  have b4 := p.maxDepth.isLt
  have b5 := p.maxLeafLength.isLt
  have b6 := p.nodeDepth.isLt
  have b7 := p.innerHashLength.isLt
  cases a
  · have hsl : (pad 16 c.salt).length = 16 := pad_length _ _ v10
    have hpl : (pad 16 c.personal).length = 16 := pad_length _ _ v11
    have e4 : p.salt = pad 16 c.salt := h4
    have e5 : p.personal = pad 16 c.personal := h5
    generalize hS : pad 16 c.salt = S at *
    generalize hP : pad 16 c.personal = P at *
    rw [initH_of_blocks c ([p.hashLength, p.keyLength, p.fanout, p.maxDepth] ++ leBytes 4 c.leafLength)
      (leBytes 8 c.nodeOffset) ([p.nodeDepth, p.innerHashLength] ++ List.replicate 6 0) (List.replicate 8 0)
      (S.take 8) (S.drop 8) (P.take 8) (P.drop 8)]
    · have w0 : p.hashLength.setWidth 64 ^^^ p.keyLength.setWidth 64 <<< 8 ^^^ p.fanout.setWidth 64 <<< 16
          ^^^ p.maxDepth.setWidth 64 <<< 24 ^^^ p.maxLeafLength.setWidth 64 <<< 32 =
          BitVec.ofNat 64 (leNat ([p.hashLength, p.keyLength, p.fanout, p.maxDepth] ++ leBytes 4 c.leafLength)) := by
        rw [setWidth_ofNat_toNat p.hashLength, xor_field _ _ _ (by omega) (by omega), xor_field _ _ _ (by omega) (by omega),
          xor_field _ _ _ (by omega) (by omega), xor_field _ _ _ (by omega) (by omega)]
        simp only [leNat, hlf, List.cons_append, List.nil_append]
        congr 1; omega
      have w1 : p.nodeOffset = BitVec.ofNat 64 (leNat (leBytes 8 c.nodeOffset)) := by
        rw [leNat_leBytes, h9]; apply BitVec.eq_of_toNat_eq; simp
      have w2 : p.nodeDepth.setWidth 64 ^^^ p.innerHashLength.setWidth 64 <<< 8 =
          BitVec.ofNat 64 (leNat ([p.nodeDepth, p.innerHashLength] ++ List.replicate 6 0)) := by
        rw [setWidth_ofNat_toNat p.nodeDepth, xor_field _ _ _ (by omega) (by omega), leNat_append, leNat_replicate_zero]
        simp only [leNat]
        congr 1; omega
      have w3 : BitVec.ofNat 64 (leNat (List.replicate 8 0)) = 0#64 := by rw [leNat_replicate_zero]
      rw [w3, ← w0, ← w2, ← w1]
      simp only [Params.toWords, fromLE, e4, e5, BitVec.xor_assoc, BitVec.xor_zero]
      rfl
    · rw [paramBlock]
      simp only [nodeOffsetBytes, saltBytes, hS, hP, h1, h2, h6, h7, h10, h11, List.flatten_cons, List.flatten_nil,
        List.append_nil, List.take_append_drop]
      rw [← List.append_assoc (S.take 8), List.take_append_drop]
      rw [show (List.replicate 14 (0 : Byte)) = List.replicate 6 0 ++ List.replicate 8 0 from rfl]
      simp only [List.append_assoc]
    · simp [hsl, hpl]
  · have hsl : (pad 8 c.salt).length = 8 := pad_length _ _ v10
    have hpl : (pad 8 c.personal).length = 8 := pad_length _ _ v11
    have e4 : p.salt = pad 8 c.salt := h4
    have e5 : p.personal = pad 8 c.personal := h5
    have v7' : c.nodeOffset < 2 ^ 48 := v7
    generalize hS : pad 8 c.salt = S at *
    generalize hP : pad 8 c.personal = P at *
    rw [initH_of_blocks c [p.hashLength, p.keyLength, p.fanout, p.maxDepth] (leBytes 4 c.leafLength)
      ((leBytes 6 c.nodeOffset).take 4) ((leBytes 6 c.nodeOffset).drop 4 ++ [p.nodeDepth, p.innerHashLength])
      (S.take 4) (S.drop 4) (P.take 4) (P.drop 4)]
    · have w0 : p.hashLength.setWidth 32 ^^^ p.keyLength.setWidth 32 <<< 8 ^^^ p.fanout.setWidth 32 <<< 16
          ^^^ p.maxDepth.setWidth 32 <<< 24 =
          BitVec.ofNat 32 (leNat [p.hashLength, p.keyLength, p.fanout, p.maxDepth]) := by
        rw [setWidth_ofNat_toNat p.hashLength, xor_field _ _ _ (by omega) (by omega), xor_field _ _ _ (by omega) (by omega),
          xor_field _ _ _ (by omega) (by omega)]
        simp only [leNat]
        congr 1; omega
      have w1 : p.maxLeafLength = BitVec.ofNat 32 (leNat (leBytes 4 c.leafLength)) := by
        rw [hlf]; simp
      have hno : p.nodeOffset.toNat = c.nodeOffset := by
        rw [h9, BitVec.toNat_ofNat]; exact Nat.mod_eq_of_lt (by omega)
      have w2 : p.nodeOffset.setWidth 32 = BitVec.ofNat 32 (leNat ((leBytes 6 c.nodeOffset).take 4)) := by
        rw [leNat_take, leNat_leBytes, setWidth_ofNat_toNat, hno]
        apply BitVec.eq_of_toNat_eq; simp only [BitVec.toNat_ofNat]; omega
      have w3 : (p.nodeOffset >>> 32).setWidth 32 ^^^ p.nodeDepth.setWidth 32 <<< 16 ^^^ p.innerHashLength.setWidth 32 <<< 24 =
          BitVec.ofNat 32 (leNat ((leBytes 6 c.nodeOffset).drop 4 ++ [p.nodeDepth, p.innerHashLength])) := by
        have hsh : (p.nodeOffset >>> 32).toNat = c.nodeOffset / 2 ^ 32 := by
          rw [BitVec.toNat_ushiftRight, hno, Nat.shiftRight_eq_div_pow]
        rw [setWidth_ofNat_toNat (p.nodeOffset >>> 32), hsh, xor_field _ _ _ (by omega) (by omega),
          xor_field _ _ _ (by omega) (by omega), leNat_append, leNat_drop, leNat_leBytes]
        simp only [leNat, List.length_drop, leBytes_length]
        congr 1; omega
      rw [← w0, ← w1, ← w2, ← w3]
      simp only [Params.toWords, fromLE, e4, e5, BitVec.xor_assoc]
      rfl
    · rw [paramBlock]
      simp only [nodeOffsetBytes, saltBytes, hS, hP, h1, h2, h6, h7, h10, h11, List.flatten_cons, List.flatten_nil,
        List.append_nil, List.take_append_drop]
      rw [← List.append_assoc (S.take 4), List.take_append_drop]
      simp only [List.append_assoc]
      rw [← List.append_assoc ((leBytes 6 c.nodeOffset).take 4), List.take_append_drop]
    · simp [hsl, hpl]

end Blake2
