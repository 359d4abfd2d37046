import Verif.Properties.Batch
import Verif.Properties.Tree
/-!
# Properties of `Hash` values and of `Debug` output: C20, C21, C30, and positions read by comparisons (C41)
-/
namespace Blake2
open Spec

variable {a : Alg}

/-! ## What all hashes have in common -/

theorem stateWordsToBytes_length (w : Vector (Word a) 8) : (stateWordsToBytes a w).length = a.outbytes := by
  rw [stateWordsToBytes_eq, wordsToBytes_length]

theorem Rep.len {c : Config} {p : Params a} (h : Rep a c p) :
    p.hashLength.toNat = c.digestLength ∧ 1 ≤ c.digestLength ∧ c.digestLength ≤ a.outbytes := by
  have h1 := h.valid.1
  have h2 := h.valid.2.1
  rw [maxOut_eq] at h2
  have h3 := outbytes_lt a
  rw [h.hashLength, BitVec.toNat_ofNat, Nat.mod_eq_of_lt (by omega)]
  exact ⟨rfl, h1, h2⟩

theorem JobReachable.len {j : HashManyJob a} (h : JobReachable j) :
    1 ≤ j.hashLength.toNat ∧ j.hashLength.toNat ≤ a.outbytes := by
  induction h with
  | new p msg j hb hn =>
    obtain ⟨c, hr⟩ := hb.rep
    obtain ⟨j', e, _, hl, _⟩ := hashManyJob_new hr msg
    rw [hn] at e
    cases e
    rw [hl, hr.len.1]
    exact hr.len.2
  | run jobs out j hj hm hin ih =>
    rw [hashMany_eq jobs (fun k hk => (hj k hk).count_ok)] at hm
    cases hm
    obtain ⟨k, hk, rfl⟩ := List.mem_map.1 hin
    rw [done_hashLength]
    exact ih k hk

theorem HashReachable.ok {h : Hash a} (hr : HashReachable h) :
    h.bytes.length = a.outbytes ∧ 1 ≤ h.len.toNat ∧ h.len.toNat ≤ a.outbytes := by
  have h3 := outbytes_lt a
  have hw : ∀ n, 1 ≤ n → n ≤ maxOut a → 1 ≤ (BitVec.ofNat 8 n).toNat ∧ (BitVec.ofNat 8 n).toNat ≤ a.outbytes := by
    intro n h1 h2
    rw [maxOut_eq] at h2
    rw [BitVec.toNat_ofNat, Nat.mod_eq_of_lt (by omega)]
    exact ⟨h1, h2⟩
  cases hr with
  | params p x _ hb he =>
    obtain ⟨c, hr⟩ := hb.rep
    rw [hash_eq hr] at he
    cases he
    exact ⟨wordsToBytes_length _, by rw [hr.len.1]; exact hr.len.2⟩
  | state s _ hs he =>
    obtain ⟨dbg, ops, ss, os, hv, e0, hs⟩ := hs
    obtain ⟨ss', e, r⟩ := execAll_refines (a := a) rel_nil dbg ops hv
    rw [e0] at e
    simp only [Except.ok.injEq, Prod.mk.injEq] at e
    obtain ⟨rfl, _⟩ := e
    obtain ⟨i, hi, rfl⟩ := List.getElem_of_mem hs
    have rr := r.2 i (by rw [← r.1]; exact hi) hi
    rw [rr.finalize] at he
    cases he
    exact ⟨wordsToBytes_length _, hw _ rr.2.2.2.2.1 rr.2.2.2.2.2.1⟩
  | job j dbg _ hj he =>
    unfold HashManyJob.toHash at he
    split at he
    · cases he
    · cases he
      exact ⟨stateWordsToBytes_length _, hj.len⟩
  | pparams plat calls p x _ hb he =>
    obtain ⟨r, _⟩ := pbuilt_rep hb
    rw [PParams.hash_eq r] at he
    cases he
    refine ⟨treeFull_length _, ?_⟩
    rw [r.hashLength]
    exact hw _ r.pos r.le
  | pstate s _ hs he =>
    obtain ⟨h, r⟩ := hs.rel
    rw [r.finalize] at he
    cases he
    exact ⟨treeFull_length _, hw _ r.2.2.2.2.2.2 r.2.2.2.2.1⟩
  | array bytes hl =>
    refine ⟨by rw [← maxOut_eq]; exact hl, ?_⟩
    have : 1 ≤ maxOut a := by cases a <;> decide
    exact hw a.outbytes (by rw [← maxOut_eq]; exact this) (by rw [maxOut_eq]; exact Nat.le_refl _)

theorem HashReachable.asBytes {h : Hash a} (hr : HashReachable h) : h.asBytes = .ok (h.bytes.take h.len.toNat) := by
  obtain ⟨h1, _, h2⟩ := hr.ok
  unfold Hash.asBytes sliceTo
  rw [if_pos (by omega)]

/-! ## C20 -/

/-- C20. The hash of a `Params` has exactly the configured number of bytes. -/
theorem C20_length (plat : Platform) (calls : List Setter) (p : Params a)
    (hb : (Params.new a plat).build calls = .ok p) (input : List Byte) :
    ∃ h d, p.hash input = .ok h ∧ h.asBytes = .ok d ∧ d.length = (configOf a calls).digestLength ∧
      1 ≤ d.length ∧ d.length ≤ maxOut a := by
  obtain ⟨r, _⟩ := built_rep hb
  have hl : (Spec.hash a (configOf a calls) input).length = (configOf a calls).digestLength := by
    rw [Spec.hash, List.length_take, hashFull, wordsToBytes_length]
    have := r.len; omega
  refine ⟨_, _, hash_eq r input, asBytes_full r input, hl, ?_⟩
  rw [hl, maxOut_eq]
  exact r.len.2

example : ∃ p h d, (Params.new .b .AVX2).build [.key [1], .hashLength 17] = .ok p ∧ p.hash [1, 2, 3] = .ok h ∧ h.asBytes = .ok d ∧
    d.length = 17 :=
  let ⟨p, e⟩ := C03_nonvacuous (a := .b) .AVX2 [.key [1], .hashLength 17] (by decide)
  let ⟨h, d, h1, h2, h3, _⟩ := C20_length .AVX2 _ p e [1, 2, 3]
  ⟨p, h, d, e, h1, h2, h3⟩

/-- C20 for the tree variants. -/
theorem C20_tree_length (plat : Platform) (calls : List PSetter) (p : PParams a)
    (hb : (PParams.new a plat).build calls = .ok p) (input : List Byte) :
    ∃ h d, p.hash input = .ok h ∧ h.asBytes = .ok d ∧ d.length = (pconfigOf a calls).hashLength ∧
      1 ≤ d.length ∧ d.length ≤ maxOut a := by
  obtain ⟨r, _⟩ := pbuilt_rep hb
  have hl : (Spec.hashP a (pconfigOf a calls).hashLength (pconfigOf a calls).key input).length =
      (pconfigOf a calls).hashLength := by
    rw [← treeFull_take, List.length_take, treeFull_length, ← maxOut_eq]
    have := r.le; omega
  exact ⟨_, _, PParams.hash_eq r input, r.asBytes input, hl, by rw [hl]; exact ⟨r.pos, r.le⟩⟩

example : ∃ p h d, (PParams.new .s .SSE41).build [.hashLength 5] = .ok p ∧ p.hash [1, 2, 3] = .ok h ∧ h.asBytes = .ok d ∧ d.length = 5 :=
  let ⟨p, e⟩ := pbuild_ok (a := .s) .SSE41 [.hashLength 5] (by decide)
  let ⟨h, d, h1, h2, h3, _⟩ := C20_tree_length .SSE41 _ p e [1, 2, 3]
  ⟨p, h, d, e, h1, h2, h3⟩

/-- C20. Every hash a client can hold has between 1 and `OUTBYTES` bytes. -/
theorem C20_bounds (h : Hash a) (hr : HashReachable h) :
    ∃ d, h.asBytes = .ok d ∧ 1 ≤ d.length ∧ d.length ≤ maxOut a := by
  obtain ⟨h1, h2, h3⟩ := hr.ok
  refine ⟨_, hr.asBytes, ?_⟩
  rw [List.length_take, maxOut_eq]
  omega

example : ∃ d, (Hash.ofArray (List.replicate 64 7) : Hash .b).asBytes = .ok d ∧ 1 ≤ d.length ∧ d.length ≤ 64 :=
  C20_bounds _ (.array (List.replicate 64 7) (by decide))

theorem hexTable_fin : ∀ m : Fin 16, Hash.hexTable[m.val] = Nat.digitChar m.val := by decide

theorem hexAt_eq (n : Nat) (h : n < 16) : Hash.hexAt n = .ok (Nat.digitChar n) := by
  rw [Hash.hexAt, dif_pos h]
  exact congrArg _ (hexTable_fin ⟨n, h⟩)

theorem hex_nibbles (b : Byte) : (b >>> 4).toNat = b.toNat / 16 ∧ (b &&& 0xf).toNat = b.toNat % 16 := by
  have hb := b.isLt
  constructor
  · rw [BitVec.toNat_ushiftRight, Nat.shiftRight_eq_div_pow]
  · rw [BitVec.toNat_and, show (0xf : Byte).toNat = 2 ^ 4 - 1 from rfl, Nat.and_two_pow_sub_one_eq_mod]

theorem bytesToHex_eq (bytes : List Byte) (h : bytes.length ≤ a.outbytes) :
    Hash.bytesToHex a bytes = .ok (hexOf bytes) := by
  have key : ∀ (bs : List Byte) (s : List Char), s.length + 2 * bs.length ≤ 2 * a.outbytes →
      bs.foldlM (init := s) (fun s (b : BitVec 8) => do
        let c ← Hash.hexAt (b >>> 4).toNat
        let s ← Hash.bytesToHex.push a s c
        let c ← Hash.hexAt (b &&& 0xf).toNat
        Hash.bytesToHex.push a s c) = (.ok (s ++ hexOf bs) : Res (List Char)) := by
    intro bs
    induction bs with
    | nil => intro s _; simp [hexOf]; rfl
    | cons b bs ih =>
      intro s hs
      rw [List.length_cons] at hs
      rw [List.foldlM_cons]
      have hb := b.isLt
      obtain ⟨n1, n2⟩ := hex_nibbles b
      have h1 : s.length < 2 * a.outbytes := by omega
      have h2 : (s ++ [Nat.digitChar (b.toNat / 16)]).length < 2 * a.outbytes := by
        rw [List.length_append, List.length_singleton]; omega
      have := ih (s ++ [Nat.digitChar (b.toNat / 16)] ++ [Nat.digitChar (b.toNat % 16)]) (by
        simp only [List.length_append, List.length_singleton]; omega)
      rw [n1, n2, hexAt_eq _ (show b.toNat / 16 < 16 by omega), hexAt_eq _ (show b.toNat % 16 < 16 by omega)]
      simp only [Hash.bytesToHex.push, h1, h2, if_true, bind, Except.bind] at this ⊢
      rw [this]
      simp [hexOf]
  have := key bytes [] (by rw [List.length_nil]; omega)
  exact this

theorem hexVal_digitChar (n : Nat) (h : n < 16) : hexVal (Nat.digitChar n) = some n := by
  have : ∀ m : Fin 16, hexVal (Nat.digitChar m) = some m := by decide
  exact this ⟨n, h⟩

theorem unhex_hexOf (bytes : List Byte) : unhex (hexOf bytes) = some bytes := by
  induction bytes with
  | nil => rfl
  | cons b bs ih =>
    have hb := b.isLt
    have e : hexOf (b :: bs) = Nat.digitChar (b.toNat / 16) :: Nat.digitChar (b.toNat % 16) :: hexOf bs := rfl
    rw [e, unhex, hexVal_digitChar _ (by omega), hexVal_digitChar _ (by omega), ih]
    simp only [Option.bind_eq_bind, Option.bind_some]
    rw [Nat.div_add_mod, BitVec.ofNat_toNat, BitVec.setWidth_eq]

/-- C20. `to_hex` is the lowercase hexadecimal text of the bytes, two digits each; it never overflows its buffer, and decodes
back to the bytes. -/
theorem C20_hex (h : Hash a) (hr : HashReachable h) :
    ∃ d, h.asBytes = .ok d ∧ h.toHex = .ok (hexOf d) ∧ (hexOf d).length = 2 * d.length ∧ unhex (hexOf d) = some d ∧
      (∀ c ∈ hexOf d, ('0' ≤ c ∧ c ≤ '9') ∨ ('a' ≤ c ∧ c ≤ 'f')) ∧
      h.debugFmt = .ok ("Hash(0x" ++ String.ofList (hexOf d) ++ ")") := by
  obtain ⟨h1, h2, h3⟩ := hr.ok
  have hx : h.toHex = .ok (hexOf (h.bytes.take h.len.toNat)) := by
    unfold Hash.toHex
    rw [hr.asBytes]
    exact bytesToHex_eq _ (by rw [List.length_take]; omega)
  refine ⟨_, hr.asBytes, hx, ?_, unhex_hexOf _, ?_, ?_⟩
  · generalize h.bytes.take h.len.toNat = d
    induction d with
    | nil => rfl
    | cons b bs ih =>
      have e : hexOf (b :: bs) = Nat.digitChar (b.toNat / 16) :: Nat.digitChar (b.toNat % 16) :: hexOf bs := rfl
      rw [e, List.length_cons, List.length_cons, List.length_cons, ih]; omega
  · intro c hc
    obtain ⟨b, _, hc⟩ := List.mem_flatMap.1 hc
    have hb := b.isLt
    have key : ∀ m : Fin 16, ('0' ≤ Nat.digitChar m ∧ Nat.digitChar m ≤ '9') ∨
        ('a' ≤ Nat.digitChar m ∧ Nat.digitChar m ≤ 'f') := by decide
    simp only [List.mem_cons, List.not_mem_nil, or_false] at hc
    rcases hc with rfl | rfl
    · exact key ⟨b.toNat / 16, by omega⟩
    · exact key ⟨b.toNat % 16, by omega⟩
  · unfold Hash.debugFmt
    rw [hx]; rfl

/-- The text of a hash of 32 bytes 0x5a. -/
example : (Hash.ofArray (List.replicate 32 0x5a) : Hash .s).toHex = .ok (List.replicate 32 ['5', 'a']).flatten :=
  let ⟨d, h1, h2, _⟩ := C20_hex (a := .s) _ (.array (List.replicate 32 0x5a) (by decide))
  h2.trans (by
    have : (Hash.ofArray (List.replicate 32 0x5a) : Hash .s).asBytes = .ok (List.replicate 32 0x5a) := rfl
    rw [this] at h1
    cases h1
    exact congrArg _ (by decide +kernel))

theorem or_eq_zero (x y : Byte) : x ||| y = 0 ↔ x = 0 ∧ y = 0 := by
  constructor
  · intro h
    constructor
    · apply BitVec.eq_of_getElem_eq
      intro i hi
      have := congrArg (fun v : Byte => v[i]) h
      simp only [BitVec.getElem_or] at this
      have h0 : (0 : Byte)[i] = false := by simp
      rw [h0] at this ⊢
      exact (Bool.or_eq_false_iff.1 this).1
    · apply BitVec.eq_of_getElem_eq
      intro i hi
      have := congrArg (fun v : Byte => v[i]) h
      simp only [BitVec.getElem_or] at this
      have h0 : (0 : Byte)[i] = false := by simp
      rw [h0] at this ⊢
      exact (Bool.or_eq_false_iff.1 this).2
  · rintro ⟨rfl, rfl⟩; rfl

theorem constantTimeLoop_zero (n : Nat) (x y : List Byte) (acc : Byte) (hl : x.length = y.length) :
    (constantTimeLoop n (x.zip y) acc).1 = 0 ↔ acc = 0 ∧ x = y := by
  induction x generalizing y acc n with
  | nil =>
    cases y with
    | nil => simp [constantTimeLoop]
    | cons b bs => simp at hl
  | cons b bs ih =>
    cases y with
    | nil => simp at hl
    | cons c cs =>
      simp only [List.zip_cons_cons, constantTimeLoop]
      rw [ih (n + 1) cs (acc ||| (b ^^^ c)) (by simpa using hl), or_eq_zero,
        show (b ^^^ c = 0 ↔ b = c) from BitVec.xor_eq_zero_iff, List.cons.injEq]
      constructor
      · rintro ⟨⟨h1, h2⟩, h3⟩; exact ⟨h1, h2, h3⟩
      · rintro ⟨h1, h2, h3⟩; exact ⟨⟨h1, h2⟩, h3⟩

theorem constantTimeEq_eq (x y : List Byte) : constantTimeEq x y = decide (x = y) := by
  unfold constantTimeEq constantTimeEqLog
  by_cases hl : x.length = y.length
  · rw [if_neg (by simp [hl])]
    have := constantTimeLoop_zero 0 x y 0 hl
    simp only
    by_cases h : x = y
    · simp only [h, decide_true, beq_iff_eq]
      exact (h ▸ this).2 ⟨rfl, rfl⟩
    · simp only [h, decide_false, beq_eq_false_iff_ne, ne_eq]
      exact fun e => h (this.1 e).2
  · rw [if_pos (by simpa using hl)]
    simp only
    rw [eq_comm, decide_eq_false_iff_not]
    exact fun e => hl (congrArg _ e)

/-- C20. Two hashes, or a hash and a slice of any length, compare equal exactly when their bytes are equal. -/
theorem C20_equality (h k : Hash a) (hr : HashReachable h) (kr : HashReachable k) (other : List Byte) :
    ∃ d e, h.asBytes = .ok d ∧ k.asBytes = .ok e ∧ h.eqHash k = .ok (decide (d = e)) ∧
      h.eqSlice other = .ok (decide (d = other)) := by
  refine ⟨_, _, hr.asBytes, kr.asBytes, ?_, ?_⟩
  · unfold Hash.eqHash
    simp only [hr.asBytes, kr.asBytes, bind, Except.bind, constantTimeEq_eq]
  · unfold Hash.eqSlice
    simp only [hr.asBytes, bind, Except.bind, constantTimeEq_eq]

/-- Hashes a client can hold: a keyed truncated one and one from an array. -/
example : (∃ h : Hash .b, HashReachable h ∧ h.len = 17) ∧ (∃ h : Hash .b, HashReachable h ∧ h.len = 64) := by
  constructor
  · obtain ⟨p, e⟩ := C03_nonvacuous (a := .b) .AVX2 [.key [1], .hashLength 17] (by decide)
    obtain ⟨r, _⟩ := built_rep e
    exact ⟨_, .params p [1, 2, 3] _ ⟨_, _, e⟩ (hash_eq r _), by
      have := r.hashLength
      rw [this]; rfl⟩
  · exact ⟨_, .array (List.replicate 64 7) (by decide), rfl⟩

/-! ## C21 -/

/-- C21. `Hash::from(array)` has that array as its bytes and as its array, in debug and release builds. -/
theorem C21_from_array (bytes : List Byte) (hl : bytes.length = maxOut a) (dbg : Bool) :
    (Hash.ofArray bytes : Hash a).asBytes = .ok bytes ∧ (Hash.ofArray bytes : Hash a).asArray dbg = .ok bytes := by
  have hr := HashReachable.array (a := a) bytes hl
  have e : (Hash.ofArray bytes : Hash a).len.toNat = a.outbytes := by cases a <;> rfl
  refine ⟨?_, ?_⟩
  · rw [hr.asBytes, e]
    rw [maxOut_eq] at hl
    exact congrArg _ (List.take_of_length_le (Nat.le_of_eq hl))
  · unfold Hash.asArray
    rw [e, beq_self_eq_true, Bool.not_true, Bool.and_false]; rfl

example : (Hash.ofArray (List.replicate 32 9) : Hash .s).asBytes = .ok (List.replicate 32 9) :=
  (C21_from_array (a := .s) (List.replicate 32 9) (by decide) true).1

/-- C21. `as_array` panics in debug builds exactly for hashes shorter than `OUTBYTES`; when it does not panic it is an array of
`OUTBYTES` bytes of which `as_bytes` is a prefix. -/
theorem C21_as_array (h : Hash a) (hr : HashReachable h) (dbg : Bool) :
    ∃ d, h.asBytes = .ok d ∧ (h.asArray dbg = .error .panic ↔ dbg = true ∧ d.length < maxOut a) ∧
      (h.asArray dbg ≠ .error .panic →
        ∃ arr, h.asArray dbg = .ok arr ∧ arr.length = maxOut a ∧ d = arr.take d.length) := by
  obtain ⟨h1, h2, h3⟩ := hr.ok
  have hl : (h.bytes.take h.len.toNat).length = h.len.toNat := by rw [List.length_take]; omega
  have hcond : (dbg && !(h.len.toNat == a.outbytes)) = true ↔ dbg = true ∧ h.len.toNat < maxOut a := by
    rw [Bool.and_eq_true, Bool.not_eq_true', beq_eq_false_iff_ne, maxOut_eq]
    constructor
    · rintro ⟨x, y⟩; exact ⟨x, by omega⟩
    · rintro ⟨x, y⟩; exact ⟨x, by omega⟩
  refine ⟨_, hr.asBytes, ?_, ?_⟩
  · rw [hl, ← hcond]
    unfold Hash.asArray
    split <;> simp [*]
  · intro hn
    refine ⟨h.bytes, ?_, by rw [maxOut_eq]; exact h1, by rw [hl]⟩
    unfold Hash.asArray at hn ⊢
    split
    · next c => rw [if_pos c] at hn; exact absurd rfl hn
    · rfl

/-- A hash of 17 bytes: a panic in a debug build, 64 bytes in a release build. -/
example : ∃ h : Hash .b, HashReachable h ∧ h.asArray true = .error .panic ∧ ∃ arr, h.asArray false = .ok arr ∧ arr.length = 64 := by
  obtain ⟨p, e⟩ := C03_nonvacuous (a := .b) .AVX2 [.key [1], .hashLength 17] (by decide)
  obtain ⟨h, d, h1, h2, h3, _⟩ := C20_length .AVX2 _ p e [1, 2, 3]
  have hr : HashReachable h := .params p [1, 2, 3] _ ⟨_, _, e⟩ h1
  obtain ⟨d', e1, e2, _⟩ := C21_as_array h hr true
  obtain ⟨d'', e3, e4, e5⟩ := C21_as_array h hr false
  rw [h2] at e1 e3
  cases e1; cases e3
  obtain ⟨arr, e6, e7, _⟩ := e5 (fun hp => by simpa using (e4.1 hp).1)
  exact ⟨h, hr, e2.2 ⟨rfl, by rw [h3]; decide⟩, arr, e6, e7⟩

/-! ## C30 -/

/-- C30 for `Params`: the text depends on the parameters other than the key, and on the key's length, only. -/
theorem C30_params (a : Alg) : ∃ text : Config → Nat → String, ∀ (plat : Platform) (calls : List Setter) (p : Params a),
    (Params.new a plat).build calls = .ok p →
      p.debugFmt = text { configOf a calls with key := [] } (configOf a calls).key.length := by
  refine ⟨fun c n =>
    "Params { hash_length: " ++ toString (BitVec.ofNat 8 c.digestLength).toNat ++
    ", key_length: " ++ toString (BitVec.ofNat 8 n).toNat ++
    ", salt: " ++ fmtBytes (pad a.saltbytes c.salt) ++
    ", personal: " ++ fmtBytes (pad a.personalbytes c.personal) ++
    ", fanout: " ++ toString (BitVec.ofNat 8 c.fanout).toNat ++
    ", max_depth: " ++ toString (BitVec.ofNat 8 c.maxDepth).toNat ++
    ", max_leaf_length: " ++ toString (BitVec.ofNat 32 c.leafLength).toNat ++
    ", node_offset: " ++ toString (BitVec.ofNat 64 c.nodeOffset).toNat ++
    ", node_depth: " ++ toString (BitVec.ofNat 8 c.nodeDepth).toNat ++
    ", inner_hash_length: " ++ toString (BitVec.ofNat 8 c.innerLength).toNat ++
    ", last_node: " ++ fmtBool c.lastNode ++ " }", ?_⟩
  intro plat calls p hb
  obtain ⟨r, _⟩ := built_rep hb
  unfold Params.debugFmt
  rw [r.hashLength, r.keyLength, r.salt, r.personal, r.fanout, r.maxDepth, r.maxLeafLength, r.nodeOffset, r.nodeDepth,
    r.innerHashLength, r.lastNode]

/-- C30 for `State`: after any history the text depends on the number of bytes fed, the hash length and the last-node flag
only, not on the key, the other parameters or the bytes. (It calls `count`, so in debug builds
`count` must not underflow.) -/
theorem C30_state (a : Alg) : ∃ text : Nat → Nat → Bool → String, ∀ (dbg : Bool) (pre : List (Op Platform)) (i : Nat)
    (h : Hasher), ValidHistory a dbg [] pre → (history a [] pre)[i]? = some h →
    (dbg = true → ¬ CountUnderflow a (bb a) h.config.key h.msg) →
    ∃ ss os s, execAll dbg ([] : List (State a)) pre = .ok (ss, os) ∧ ss[i]? = some s ∧
      s.debugFmt dbg = .ok (text (h.msg.length % 2 ^ (2 * a.w)) h.config.digestLength h.config.lastNode) := by
  refine ⟨fun n l b => "State { count: " ++ toString n ++ ", hash_length: " ++ toString (BitVec.ofNat 8 l).toNat ++
    ", last_node: " ++ fmtBool b ++ " }", ?_⟩
  intro dbg pre i h hv hi hd
  obtain ⟨ss, e, r⟩ := execAll_refines (a := a) rel_nil dbg pre hv
  have hlt : i < (history a [] pre).length := (List.getElem?_eq_some_iff.1 hi).1
  obtain ⟨s, _, es, hr⟩ := r.get hlt
  have : (history a [] pre)[i] = h := (List.getElem?_eq_some_iff.1 hi).2
  rw [this] at hr
  refine ⟨ss, _, s, e, es, ?_⟩
  unfold State.debugFmt
  rw [hr.count dbg hd]
  simp only [bind, Except.bind, BitVec.toNat_ofNat, hr.2.1, hr.2.2.1]

/-- C30 for `HashManyJob`, before and after running: the text depends on the lengths of key and input, the hash length and the
last-node flag only. -/
theorem C30_job (a : Alg) : ∃ text : Bool → Nat → Bool → Nat → String, ∀ (plat : Platform) (calls : List Setter)
    (p : Params a) (x : List Byte) (j : HashManyJob a), (Params.new a plat).build calls = .ok p →
    HashManyJob.new p x = .ok j →
    ∀ (others out : List (HashManyJob a)) (k : Nat), (∀ o ∈ others, JobReachable o) → others[k]? = some j →
      hashMany others = .ok out →
      j.debugFmt = text (decide ((configOf a calls).key ≠ [])) (configOf a calls).digestLength (configOf a calls).lastNode
        x.length ∧
      ∃ j', out[k]? = some j' ∧ j'.debugFmt = j.debugFmt := by
  refine ⟨fun k l b n => "HashManyJob { count: " ++ toString (if k then BitVec.ofNat (2 * a.w) a.bb else 0).toNat ++
    ", hash_length: " ++ toString (BitVec.ofNat 8 l).toNat ++ ", last_node: " ++ fmtBool b ++
    ", input_len: " ++ toString n ++ " }", ?_⟩
  intro plat calls p x j hb hn others out k ho hk hm
  obtain ⟨r, _⟩ := built_rep hb
  constructor
  · have e : j.count = (if (configOf a calls).key ≠ [] then BitVec.ofNat (2 * a.w) a.bb else 0) ∧
        j.hashLength = p.hashLength ∧ j.lastNode = p.lastNode ∧ j.input = x := by
      have hk := r.key_toNat
      unfold HashManyJob.new at hn
      by_cases he : (configOf a calls).key = []
      · simp only [show ¬ p.keyLength.toNat > 0 from by rw [hk, he]; simp, if_false] at hn
        cases hn
        exact ⟨by simp [he], rfl, rfl, rfl⟩
      · simp only [show p.keyLength.toNat > 0 from by rw [hk]; exact List.length_pos_iff.2 he, if_true, bind,
          Except.bind] at hn
        split at hn
        · cases hn
        · next h1 =>
          split at h1
          · cases h1
          · cases h1
            cases hn
            exact ⟨by simp [he], rfl, rfl, rfl⟩
    unfold HashManyJob.debugFmt
    rw [e.1, e.2.1, e.2.2.1, e.2.2.2, r.hashLength, r.lastNode]
    simp only [decide_eq_true_eq]
  · rw [hashMany_eq others (fun o h => (ho o h).count_ok)] at hm
    cases hm
    refine ⟨j.done, by rw [List.getElem?_map, hk]; rfl, ?_⟩
    unfold HashManyJob.done
    split <;> rfl

/-- A job made from a key and an input, in a batch by itself. -/
example : ∃ (p : Params .b) (j : HashManyJob .b) (out : List (HashManyJob .b)),
    (Params.new .b .AVX2).build [.key [1, 2]] = .ok p ∧ HashManyJob.new p [3, 4, 5] = .ok j ∧ JobReachable j ∧
    hashMany [j] = .ok out := by
  obtain ⟨p, e⟩ := C03_nonvacuous (a := .b) .AVX2 [.key [1, 2]] (by decide)
  obtain ⟨r, _⟩ := built_rep e
  obtain ⟨j, hj, _⟩ := hashManyJob_new r [3, 4, 5]
  have hr : JobReachable j := .new p _ j ⟨_, _, e⟩ hj
  exact ⟨p, j, _, e, hj, hr, hashMany_eq [j] (fun o ho => by rw [List.mem_singleton.1 ho]; exact hr.count_ok)⟩

/-- C30 for `guts::Job`. -/
theorem C30_guts_job (j j' : Job a) (h1 : j.input.length = j'.input.length) (h2 : j.count = j'.count)
    (h3 : j.lastNode = j'.lastNode) : j.debugFmt = j'.debugFmt := by
  unfold Job.debugFmt
  rw [h1, h2, h3]

/-- Two jobs with different words and inputs of the same length print the same. -/
example (w w' : Vector (Word .b) 8) :
    ({ input := [1, 2], words := w, count := 128, lastNode := true } : Job .b).debugFmt =
      ({ input := [8, 9], words := w', count := 128, lastNode := true } : Job .b).debugFmt :=
  C30_guts_job _ _ rfl rfl rfl

/-- C30 for `blake2bp::Params` and `blake2sp::Params`. -/
theorem C30_tree_params (a : Alg) : ∃ text : Nat → Nat → String, ∀ (plat : Platform) (calls : List PSetter) (p : PParams a),
    (PParams.new a plat).build calls = .ok p →
      p.debugFmt = text (pconfigOf a calls).hashLength (pconfigOf a calls).key.length := by
  refine ⟨fun l n => "Params { hash_length: " ++ toString (BitVec.ofNat 8 l).toNat ++ ", key_length: " ++
    toString (BitVec.ofNat 8 n).toNat ++ " }", ?_⟩
  intro plat calls p hb
  obtain ⟨r, _⟩ := pbuilt_rep hb
  unfold PParams.debugFmt
  rw [r.hashLength, r.keyLength]

/-- C30 for `blake2bp::State` and `blake2sp::State`. -/
theorem C30_tree_state (a : Alg) : ∃ text : Nat → Nat → String, ∀ (dbg : Bool) (pre : List (POp Platform)) (i : Nat)
    (h : PHasher), ValidPHistory a dbg [] pre → (phistory a [] pre)[i]? = some h →
    (dbg = true → ¬ CountUnderflow a (degree a * bb a) h.config.key h.msg) →
    ∃ ss os s, pexecAll dbg ([] : List (PState a)) pre = .ok (ss, os) ∧ ss[i]? = some s ∧
      s.debugFmt dbg = .ok (text (h.msg.length % 2 ^ (2 * a.w)) h.config.hashLength) := by
  refine ⟨fun n l => "State { count: " ++ toString n ++ ", hash_length: " ++ toString (BitVec.ofNat 8 l).toNat ++ " }", ?_⟩
  intro dbg pre i h hv hi hd
  obtain ⟨ss, e, r⟩ := pexecAll_refines (a := a) rel_nil dbg pre hv
  have hlt : i < (phistory a [] pre).length := (List.getElem?_eq_some_iff.1 hi).1
  obtain ⟨s, _, es, hr⟩ := r.get hlt
  have : (phistory a [] pre)[i] = h := (List.getElem?_eq_some_iff.1 hi).2
  rw [this] at hr
  refine ⟨ss, _, s, e, es, ?_⟩
  unfold PState.debugFmt
  rw [hr.count dbg hd]
  simp only [bind, Except.bind, BitVec.toNat_ofNat, hr.2.2.1]

/-- The hypotheses are met by states with a key and by clones. -/
example : (history .b [] sampleHistory)[2]?.isSome = true ∧ (phistory .b [] samplePHistory)[2]?.isSome = true := by
  decide +kernel

/-! ## C41 -/

theorem constantTimeLoop_log (n : Nat) (ps : List (Byte × Byte)) (acc : Byte) :
    (constantTimeLoop n ps acc).2 = List.range' n ps.length := by
  induction ps generalizing n acc with
  | nil => rfl
  | cons p ps ih => simp [constantTimeLoop, ih, List.range'_succ]

/-- The comparison reads every byte position once, in order, whatever the bytes are; for different lengths it reads none.
`C41_constant_time` in `Leak.lean` adds the branches. -/
theorem C41_positions (x y : List Byte) :
    (constantTimeEqLog x y).2 = (if x.length = y.length then List.range x.length else []) ∧
    (constantTimeEqLog x y).1 = constantTimeEq x y := by
  refine ⟨?_, rfl⟩
  unfold constantTimeEqLog
  by_cases h : x.length = y.length
  · rw [if_neg (by simp [h]), if_pos h]
    simp only [constantTimeLoop_log, List.length_zip, ← h, Nat.min_self, List.range_eq_range']
  · rw [if_pos (by simpa using h), if_neg h]

example : (constantTimeEqLog [1, 2, 3] [9, 2, 3]).2 = [0, 1, 2] ∧ (constantTimeEqLog [1, 2, 3] [1, 2, 3]).2 = [0, 1, 2] := by
  decide

end Blake2
