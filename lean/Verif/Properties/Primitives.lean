import Verif.Properties.Params
import Verif.Properties.Hashing
import Mathlib.Logic.Function.Basic
/-! # Properties of the constants, the rounds, the framing and the dispatch: C31, C36, C38, C40 -/
namespace Blake2
open Spec

variable {a : Alg}

/-! ## C31 -/

/-- C31. `detect` picks AVX2 exactly when it is an x86 target and AVX2 is known from the build or, with the standard library,
found on the processor; else SSE4.1 by the same rule; else the portable code. -/
theorem C31_detect (e : Machine) :
    (detect e = .AVX2 ↔ e.x86 = true ∧ (e.buildAvx2 = true ∨ e.std = true ∧ e.cpuAvx2 = true)) ∧
    (detect e = .SSE41 ↔ e.x86 = true ∧ ¬ (e.buildAvx2 = true ∨ e.std = true ∧ e.cpuAvx2 = true) ∧
      (e.buildSse41 = true ∨ e.std = true ∧ e.cpuSse41 = true)) ∧
    (detect e = .Portable ↔ e.x86 = false ∨ ¬ (e.buildAvx2 = true ∨ e.std = true ∧ e.cpuAvx2 = true) ∧
      ¬ (e.buildSse41 = true ∨ e.std = true ∧ e.cpuSse41 = true)) := by
  obtain ⟨x, bs, ba, st, cs, ca⟩ := e
  cases x <;> cases bs <;> cases ba <;> cases st <;> cases cs <;> cases ca <;> decide

/-- C31. On a processor that has what the build assumes, and on which AVX2 comes with SSE4.1, the selected implementation uses
only instruction sets the processor has; with the standard library it is the best one. -/
theorem C31_available (e : Machine) (h1 : e.buildSse41 = true → e.cpuSse41 = true) (h2 : e.buildAvx2 = true → e.cpuAvx2 = true)
    (h3 : e.cpuAvx2 = true → e.cpuSse41 = true) :
    (detect e = .AVX2 → e.x86 = true ∧ e.cpuAvx2 = true ∧ e.cpuSse41 = true) ∧
    (detect e = .SSE41 → e.x86 = true ∧ e.cpuSse41 = true) ∧
    (e.std = true → e.x86 = true →
      detect e = if e.cpuAvx2 = true then .AVX2 else if e.cpuSse41 = true then .SSE41 else .Portable) := by
  obtain ⟨x, bs, ba, st, cs, ca⟩ := e
  revert h1 h2 h3
  cases x <;> cases bs <;> cases ba <;> cases st <;> cases cs <;> cases ca <;> decide

example : ∃ e : Machine, (e.buildSse41 = true → e.cpuSse41 = true) ∧ (e.buildAvx2 = true → e.cpuAvx2 = true) ∧
    (e.cpuAvx2 = true → e.cpuSse41 = true) ∧ detect e = .SSE41 :=
  ⟨⟨true, true, false, true, true, false⟩, by decide⟩

/-- C31. `degree()` is at least 1 and at most `MAX_DEGREE`, whatever the machine. -/
theorem C31_degree (a : Alg) (e : Machine) :
    1 ≤ manyDegree a e ∧ manyDegree a e ≤ maxDegreeOn a e.x86 := by
  obtain ⟨x, bs, ba, st, cs, ca⟩ := e
  cases a <;> cases x <;> cases bs <;> cases ba <;> cases st <;> cases cs <;> cases ca <;> decide

/-- C31. `degree()` is the lane count of the widest multi-lane loop of the selected implementation: a loop of `N` lanes accepts
every `N` jobs (with counters at a block boundary, as always before the last block) if `N` is at most the degree, and panics
("unsupported") otherwise. -/
theorem C31_degree_is_lane_count (a : Alg) (plat : Platform) (s : Stride) :
    (∀ jobs, (∀ i : Fin (hiDegree a), (jobs[i]).count.toNat % bb a = 0) →
      if hiDegree a ≤ implDegree a plat then ∃ out, compressHi a plat jobs true s = .ok out
      else compressHi a plat jobs true s = .error .panic) ∧
    (∀ jobs, (∀ i : Fin (loDegree a), (jobs[i]).count.toNat % bb a = 0) →
      if loDegree a ≤ implDegree a plat then ∃ out, compressLo a plat jobs true s = .ok out
      else compressLo a plat jobs true s = .error .panic) ∧
    (implDegree a plat = 1 ∨ implDegree a plat = loDegree a ∨ implDegree a plat = hiDegree a) := by
  refine ⟨fun jobs hj => ?_, fun jobs hj => ?_, by cases a <;> cases plat <;> decide⟩
  · split
    · next h =>
      obtain ⟨out, e, _⟩ := compressHi_ok a plat s true h jobs (fun i => ⟨.inl rfl, by rw [← bb_eq]; exact hj i⟩)
      exact ⟨out, e⟩
    · next h =>
      revert h
      cases a <;> cases plat <;> first | (intro _; rfl) | (intro h; exact absurd (by decide) h)
  · split
    · next h =>
      obtain ⟨out, e, _⟩ := compressLo_ok a plat s true h jobs (fun i => ⟨.inl rfl, by rw [← bb_eq]; exact hj i⟩)
      exact ⟨out, e⟩
    · next h =>
      revert h
      cases a <;> cases plat <;> first | (intro _; rfl) | (intro h; exact absurd (by decide) h)

/-- Jobs that meet the hypothesis: four with counters 0, 128, 256, 384. -/
example : ∃ jobs : Vector (Job .b) 4, (∀ i : Fin 4, (jobs[i]).count.toNat % bb .b = 0) ∧ (jobs[3]).count = 384 :=
  ⟨Vector.ofFn fun i => { input := [1], words := IV .b, count := BitVec.ofNat _ (i * 128), lastNode := false },
    by decide, by decide⟩

/-! ## C36 -/

/-- C36. The initialisation vector is the fractional part of the square roots of the first eight primes, to `w` bits: with `r`
the integer part, `r * 2^w + iv[i]` is the integer square root of `p * 2^(2w)`. -/
theorem C36_iv (a : Alg) (i : Fin 8) : ∃ p r, firstPrimes[i]? = some p ∧ r * r ≤ p ∧ p < (r + 1) * (r + 1) ∧
    (r * 2 ^ a.w + (IV a)[i].toNat) ^ 2 ≤ p * 2 ^ (2 * a.w) ∧
    p * 2 ^ (2 * a.w) < (r * 2 ^ a.w + (IV a)[i].toNat + 1) ^ 2 := by
  have e : firstPrimes = [2, 3, 5, 7, 11, 13, 17, 19] := by decide
  rw [e]
  refine ⟨[2, 3, 5, 7, 11, 13, 17, 19][i], [1, 1, 2, 2, 3, 3, 4, 4][i], ?_⟩
  revert i
  cases a <;> decide

/-- C36. Each row of the message schedule mentions every message word exactly once. -/
theorem C36_sigma_permutation (a : Alg) (r : Fin a.rows) (w : Fin 16) : ∃ i : Fin 16, (SIGMA a)[r][i] = w ∧
    ∀ j : Fin 16, (SIGMA a)[r][j] = w → j = i := by
  revert r w
  cases a <;> decide +kernel

/-- C36. BLAKE2b rounds 10 and 11 use the schedule of rounds 0 and 1, and both algorithms share the ten rows. -/
theorem C36_sigma_rows :
    (SIGMA .b)[10] = (SIGMA .b)[0] ∧ (SIGMA .b)[11] = (SIGMA .b)[1] ∧
    ∀ r : Fin 10, (SIGMA .b)[(⟨r.val, by omega⟩ : Fin 12)] = (SIGMA .s)[r] := by
  decide

/-! ## C38 -/

theorem add_step_bijective (i j : Fin 16) (hij : i ≠ j) (x : Word a) :
    Function.Bijective fun v : Vector (Word a) 16 => v.set i (v[i] + v[j] + x) := by
  have hij' : i.val ≠ j.val := fun h => hij (Fin.ext h)
  refine Function.bijective_iff_has_inverse.2 ⟨fun v => v.set i (v[i] - x - v[j]), ?_, ?_⟩
  · intro v
    apply Vector.ext
    intro k hk
    by_cases hki : i.val = k
    · subst hki
      simp [hij']
      rw [BitVec.add_sub_cancel, BitVec.add_sub_cancel]
    · simp [Vector.getElem_set, hki]
  · intro v
    apply Vector.ext
    intro k hk
    by_cases hki : i.val = k
    · subst hki
      simp [hij']
      rw [BitVec.sub_add_cancel, BitVec.sub_add_cancel]
    · simp [Vector.getElem_set, hki]

theorem add2_step_bijective (i j : Fin 16) (hij : i ≠ j) :
    Function.Bijective fun v : Vector (Word a) 16 => v.set i (v[i] + v[j]) := by
  have := add_step_bijective (a := a) i j hij 0
  simpa using this

theorem rotateRight_bijective {w r : Nat} (hr : r < w) : Function.Bijective fun x : BitVec w => x.rotateRight r := by
  have hm : r % w = r := Nat.mod_eq_of_lt hr
  refine Function.bijective_iff_has_inverse.2 ⟨fun x => x.rotateLeft r, ?_, ?_⟩
  · intro x
    apply BitVec.eq_of_getElem_eq
    intro i hi
    simp only [BitVec.getElem_rotateLeft, BitVec.getElem_rotateRight, hm]
    split
    · rw [dif_neg (by omega)]
      congr 1; omega
    · rw [dif_pos (by omega)]
      congr 1; omega
  · intro x
    apply BitVec.eq_of_getElem_eq
    intro i hi
    simp only [BitVec.getElem_rotateLeft, BitVec.getElem_rotateRight, hm]
    split
    · rw [dif_neg (by omega)]
      congr 1; omega
    · rw [dif_pos (by omega)]
      congr 1; omega

theorem xor_step_bijective (i j : Fin 16) (hij : i ≠ j) {r : Nat} (hr : r < a.w) :
    Function.Bijective fun v : Vector (Word a) 16 => v.set i ((v[i] ^^^ v[j]).rotateRight r) := by
  have hij' : i.val ≠ j.val := fun h => hij (Fin.ext h)
  obtain ⟨inv, h1, h2⟩ := Function.bijective_iff_has_inverse.1 (rotateRight_bijective hr)
  refine Function.bijective_iff_has_inverse.2 ⟨fun v => v.set i (inv v[i] ^^^ v[j]), ?_, ?_⟩
  · intro v
    apply Vector.ext
    intro k hk
    by_cases hki : i.val = k
    · subst hki
      have := h1 (v[i] ^^^ v[j])
      simp only at this
      simp [hij']
      simp only [Fin.getElem_fin] at this
      rw [this, BitVec.xor_assoc, BitVec.xor_self, BitVec.xor_zero]
    · simp [Vector.getElem_set, hki]
  · intro v
    apply Vector.ext
    intro k hk
    by_cases hki : i.val = k
    · subst hki
      have := h2 v[i]
      simp only at this
      simp [hij']
      simp only [Fin.getElem_fin] at this
      rw [BitVec.xor_assoc, BitVec.xor_self, BitVec.xor_zero, this]
    · simp [Vector.getElem_set, hki]

theorem g_bijective (i j k l : Fin 16) (h1 : i ≠ j) (h2 : l ≠ i) (h3 : k ≠ l) (h4 : j ≠ k) (x y : Word a) :
    Function.Bijective fun v : Vector (Word a) 16 => Portable.g a v i j k l x y := by
  have hr : (Portable.rots a).1 < a.w ∧ (Portable.rots a).2.1 < a.w ∧ (Portable.rots a).2.2.1 < a.w ∧
      (Portable.rots a).2.2.2 < a.w := by cases a <;> decide
  exact (xor_step_bijective j k h4 hr.2.2.2).comp <| (add2_step_bijective k l h3).comp <|
    (xor_step_bijective l i h2 hr.2.2.1).comp <| (add_step_bijective i j h1 y).comp <|
    (xor_step_bijective j k h4 hr.2.1).comp <| (add2_step_bijective k l h3).comp <|
    (xor_step_bijective l i h2 hr.1).comp (add_step_bijective i j h1 x)

/-- C38. Every round of the compression function is a bijection on the sixteen words, for every message. -/
theorem C38_round_bijective (m : Vector (Word a) 16) (r : Fin a.rows) :
    Function.Bijective fun v : Vector (Word a) 16 => Portable.round a m v r := by
  exact (g_bijective 3 4 9 14 (by decide) (by decide) (by decide) (by decide) _ _).comp <|
    (g_bijective 2 7 8 13 (by decide) (by decide) (by decide) (by decide) _ _).comp <|
    (g_bijective 1 6 11 12 (by decide) (by decide) (by decide) (by decide) _ _).comp <|
    (g_bijective 0 5 10 15 (by decide) (by decide) (by decide) (by decide) _ _).comp <|
    (g_bijective 3 7 11 15 (by decide) (by decide) (by decide) (by decide) _ _).comp <|
    (g_bijective 2 6 10 14 (by decide) (by decide) (by decide) (by decide) _ _).comp <|
    (g_bijective 1 5 9 13 (by decide) (by decide) (by decide) (by decide) _ _).comp
      (g_bijective 0 4 8 12 (by decide) (by decide) (by decide) (by decide) _ _)

/-- C38. So are all rounds together. -/
theorem C38_permutation_bijective (m : Vector (Word a) 16) :
    Function.Bijective fun v : Vector (Word a) 16 => (Portable.roundNumbers a).foldl (Portable.round a m) v := by
  have key : ∀ rs : List (Fin a.rows),
      Function.Bijective fun v : Vector (Word a) 16 => rs.foldl (Portable.round a m) v := by
    intro rs
    induction rs with
    | nil => exact Function.bijective_id
    | cons r rs ih => exact ih.comp (C38_round_bijective m r)
  exact key _

/-- C38. With the message and the counter fixed, no two chaining values `h`, `h'` lead to the same internal state after the
rounds. (`compress_block` feeds the rounds with the chaining value, the constants, the counter and the flags.) -/
theorem C38_no_internal_collision (m v v' : Vector (Word a) 16)
    (h : (Portable.roundNumbers a).foldl (Portable.round a m) v = (Portable.roundNumbers a).foldl (Portable.round a m) v') :
    v = v' := (C38_permutation_bijective m).1 h

theorem nway_round_bijective {N : Nat} {R : Type} {o : VImpl a N R} (L : LaneLaws o)
    (ext : ∀ x y : R, (∀ i, o.ln i x = o.ln i y) → x = y) (m : Vector R 16) (r : Fin a.rows) :
    Function.Bijective fun v : Vector R 16 => NWay.round o m v r := by
  have vext : ∀ v v' : Vector R 16, (∀ i, v.map (o.ln i) = v'.map (o.ln i)) → v = v' := by
    intro v v' h
    apply Vector.ext
    intro k hk
    apply ext
    intro i
    have := congrArg (fun u : Vector (Word a) 16 => u[k]) (h i)
    simpa using this
  constructor
  · intro v v' h
    apply vext
    intro i
    apply (C38_round_bijective (m.map (o.ln i)) r).1
    show Portable.round a _ _ r = Portable.round a _ _ r
    rw [← round_lane L, ← round_lane L]
    exact congrArg _ h
  · intro w
    have hs := fun i => (C38_round_bijective (m.map (o.ln i)) r).2 (w.map (o.ln i))
    refine ⟨Vector.ofFn fun k => o.setN (Vector.ofFn fun i => (Classical.choose (hs i))[k]), ?_⟩
    apply vext
    intro i
    show (NWay.round o m _ r).map _ = _
    rw [round_lane L, ← Classical.choose_spec (hs i)]
    congr 1
    apply Vector.ext
    intro k hk
    rw [Vector.getElem_map, Vector.getElem_ofFn, L.setN]
    simp

/-- C38 for the vectorised rounds of the four SIMD files: on sixteen registers, for every message. -/
theorem C38_simd_rounds_bijective :
    (∀ (m : Vector X86.M256 16) r, Function.Bijective fun v => NWay.round BAvx2.impl m v r) ∧
    (∀ (m : Vector X86.M128 16) r, Function.Bijective fun v => NWay.round BSse41.impl m v r) ∧
    (∀ (m : Vector X86.M256 16) r, Function.Bijective fun v => NWay.round SAvx2.impl m v r) ∧
    (∀ (m : Vector X86.M128 16) r, Function.Bijective fun v => NWay.round SSse41.impl m v r) :=
  ⟨fun m r => nway_round_bijective BAvx2.laws (fun _ _ h => X86.q4_ext (h 0) (h 1) (h 2) (h 3)) m r,
    fun m r => nway_round_bijective BSse41.laws (fun _ _ h => X86.q2_ext (h 0) (h 1)) m r,
    fun m r => nway_round_bijective SAvx2.laws
      (fun _ _ h => X86.d8_ext (h 0) (h 1) (h 2) (h 3) (h 4) (h 5) (h 6) (h 7)) m r,
    fun m r => nway_round_bijective SSse41.laws (fun _ _ h => X86.d4_ext (h 0) (h 1) (h 2) (h 3)) m r⟩

/-! ## C40 -/

theorem F_mod (h : Vector (Word a) 8) (block : List Byte) (t : Nat) (f f1 : Bool) :
    F a h block (t % 2 ^ (2 * a.w)) f f1 = F a h block t f f1 := by
  rw [← portable_compressBlock_eq, ← portable_compressBlock_eq]
  congr 1
  apply BitVec.eq_of_toNat_eq
  rw [BitVec.toNat_ofNat, BitVec.toNat_ofNat, Nat.mod_mod]

theorem process_frames (h : Vector (Word a) 8) (data : List Byte) (ln : Bool) :
    process a h data ln = (frames a data ln).foldl (Frame.step a) h := by
  unfold process frames
  simp only [List.foldl_append, List.foldl_cons, List.foldl_nil, List.foldl_map, Frame.step, F_mod]

theorem dataBlock_length (data : List Byte) (i : Nat) : (dataBlock a data i).length = bb a := by
  rw [dataBlock]
  exact pad_length _ _ (by rw [List.length_take]; omega)

theorem dataBlock_take (data : List Byte) (i n : Nat) (h : n ≤ data.length - i * bb a) (hn : n ≤ bb a) :
    (dataBlock a data i).take n = (data.drop (i * bb a)).take n := by
  rw [dataBlock, pad, List.take_append_of_le_length (by rw [List.length_take, List.length_drop]; omega), List.take_take,
    Nat.min_eq_left hn]

/-- Data are determined by their length and their blocks. -/
theorem eq_of_dataBlocks {x y : List Byte} (hl : x.length = y.length)
    (h : ∀ i, i < numBlocks a x.length → dataBlock a x i = dataBlock a y i) : x = y := by
  have hb : 0 < bb a := by cases a <;> decide
  apply List.ext_getElem hl
  intro n h1 h2
  have hq : n / bb a < numBlocks a x.length := by
    unfold numBlocks
    have : n / bb a + 1 ≤ (x.length + bb a - 1) / bb a := by
      rw [Nat.le_div_iff_mul_le hb, Nat.add_mul, Nat.one_mul]
      have := Nat.div_mul_le_self n (bb a)
      omega
    omega
  have e := congrArg (fun l : List Byte => l[n % bb a]?) (h _ hq)
  have hm := Nat.mod_lt n hb
  have hd := Nat.div_add_mod n (bb a)
  rw [Nat.mul_comm] at hd
  have key : ∀ z : List Byte, ∀ hz : n < z.length, (dataBlock a z (n / bb a))[n % bb a]? = some z[n] := by
    intro z hz
    have ht := dataBlock_take (a := a) z (n / bb a) (n % bb a + 1) (by omega) (by omega)
    have h3 : (dataBlock a z (n / bb a))[n % bb a]? = ((dataBlock a z (n / bb a)).take (n % bb a + 1))[n % bb a]? := by
      rw [List.getElem?_take_of_lt (by omega)]
    rw [h3, ht, List.getElem?_take_of_lt (by omega), List.getElem?_drop, hd, List.getElem?_eq_getElem hz]
  rw [key x h1, key y h2] at e
  exact Option.some.inj e

theorem frames_length (data : List Byte) (ln : Bool) : (frames a data ln).length = numBlocks a data.length := by
  unfold frames
  simp only [List.length_append, List.length_map, List.length_range, List.length_singleton]
  have : 1 ≤ numBlocks a data.length := by unfold numBlocks; omega
  omega

theorem frames_block (data : List Byte) (ln : Bool) (i : Nat) (h : i < numBlocks a data.length) :
    ((frames a data ln)[i]?).map Frame.block = some (dataBlock a data i) := by
  unfold frames
  by_cases hi : i < numBlocks a data.length - 1
  · rw [List.getElem?_append_left (by simpa using hi)]
    simp [hi]
  · have : i = numBlocks a data.length - 1 := by omega
    subst this
    rw [List.getElem?_append_right (by simp)]
    simp

theorem frames_last (data : List Byte) (ln : Bool) :
    (frames a data ln).getLast? =
      some ⟨dataBlock a data (numBlocks a data.length - 1), data.length % 2 ^ (2 * a.w), true, ln⟩ := by
  unfold frames
  simp

/-- Frames determine the data and the flag, even though counters wrap. -/
theorem frames_injective {x y : List Byte} {l l' : Bool} (h : frames a x l = frames a y l') : x = y ∧ l = l' := by
  have hn : numBlocks a x.length = numBlocks a y.length := by rw [← frames_length x l, ← frames_length y l', h]
  have hlast := congrArg List.getLast? h
  rw [frames_last, frames_last, Option.some.injEq, Frame.mk.injEq] at hlast
  refine ⟨eq_of_dataBlocks (a := a) ?_ ?_, hlast.2.2.2⟩
  · have hb : 0 < bb a := by cases a <;> decide
    have hlt : bb a < 2 ^ (2 * a.w) := by cases a <;> decide
    have hdvd : bb a ∣ 2 ^ (2 * a.w) := by
      rw [bb_eq]; exact Nat.dvd_trans (bb_dvd a) (Nat.pow_dvd_pow _ (by omega))
    have hc := hlast.2.1
    have hmod : x.length % bb a = y.length % bb a := by
      rw [← Nat.mod_mod_of_dvd _ hdvd, hc, Nat.mod_mod_of_dvd _ hdvd]
    have hceil : ∀ n, 0 < n → (n + bb a - 1) / bb a = (n - 1) / bb a + 1 := by
      intro n hn
      rw [show n + bb a - 1 = n - 1 + bb a by omega, Nat.add_div_right _ hb]
    unfold numBlocks at hn
    have hz : (0 + bb a - 1) / bb a = 0 := Nat.div_eq_of_lt (by omega)
    have small : ∀ n, 0 < n → (n - 1) / bb a = 0 → n % bb a = 0 → n = bb a := by
      intro n hn h0 hm
      have h1 : n - 1 < bb a := by
        rcases Nat.div_eq_zero_iff.1 h0 with h | h <;> omega
      rcases Nat.lt_or_eq_of_le (show n ≤ bb a by omega) with h | h
      · rw [Nat.mod_eq_of_lt h] at hm; omega
      · exact h
    have aux1 : ∀ q, max 1 0 = max 1 (q + 1) → q = 0 := by intro q; omega
    have aux2 : ∀ q q', max 1 (q + 1) = max 1 (q' + 1) → q = q' := by intro q q'; omega
    rcases Nat.eq_zero_or_pos x.length with hx | hx <;> rcases Nat.eq_zero_or_pos y.length with hy | hy
    · omega
    · rw [hx, hz, hceil _ hy] at hn
      have := small _ hy (aux1 _ hn) (by rw [← hmod, hx, Nat.zero_mod])
      rw [hx, this, Nat.zero_mod, Nat.mod_eq_of_lt hlt] at hc
      omega
    · rw [hy, hz, hceil _ hx] at hn
      have := small _ hx (aux1 _ hn.symm) (by rw [hmod, hy, Nat.zero_mod])
      rw [hy, this, Nat.zero_mod, Nat.mod_eq_of_lt hlt] at hc
      omega
    · rw [hceil _ hx, hceil _ hy] at hn
      have hq : (x.length - 1) / bb a = (y.length - 1) / bb a := aux2 _ _ hn
      have e1 := Nat.div_add_mod (x.length - 1) (bb a)
      have e2 := Nat.div_add_mod (y.length - 1) (bb a)
      rw [← hq] at e2
      have l1 := Nat.mod_lt (x.length - 1) hb
      have l2 := Nat.mod_lt (y.length - 1) hb
      have key : ∀ n r, n = bb a * ((x.length - 1) / bb a) + (r + 1) → r < bb a →
          n % bb a = if r + 1 = bb a then 0 else r + 1 := by
        intro n r hn hr
        rw [hn, Nat.mul_add_mod]
        split
        · next h => rw [h, Nat.mod_self]
        · exact Nat.mod_eq_of_lt (by omega)
      have k1 := key x.length _ (by omega) l1
      have k2 := key y.length _ (by omega) l2
      rw [k1, k2] at hmod
      split at hmod <;> split at hmod <;> omega
  · intro i hi
    have e := congrArg (fun fs => (fs[i]?).map Frame.block) h
    rw [frames_block x l i hi, frames_block y l' i (by omega)] at e
    exact Option.some.inj e

/-- C40. Any hash by the code is the fold of the compression function over the frames of the key block and the input, starting
from a value determined by the parameters, and the starting value with the frames determines key, input and last-node flag: two
different uses always differ in something the compression function is given. -/
theorem C40_framing (plat plat' : Platform) (calls calls' : List Setter) (p p' : Params a)
    (hb : (Params.new a plat).build calls = .ok p) (hb' : (Params.new a plat').build calls' = .ok p') (input input' : List Byte)
    (c c' : Config) (hc : c = configOf a calls) (hc' : c' = configOf a calls') :
    (∃ h, p.hash input = .ok h ∧ h.asBytes = .ok ((wordsToBytes a
      ((frames a (keyedData a c.key input) c.lastNode).foldl (Frame.step a) (initH a c))).take c.digestLength)) ∧
    (initH a c = initH a c' → frames a (keyedData a c.key input) c.lastNode = frames a (keyedData a c'.key input') c'.lastNode →
      c.key = c'.key ∧ input = input' ∧ c.lastNode = c'.lastNode) := by
  subst hc hc'
  obtain ⟨r, _⟩ := built_rep hb
  obtain ⟨r', _⟩ := built_rep hb'
  refine ⟨⟨_, hash_eq r input, ?_⟩, fun hi hf => ?_⟩
  · rw [asBytes_full r input, Spec.hash, hashFull, process_frames]
  · obtain ⟨hd, hl⟩ := frames_injective hf
    have hkl := (paramBlock_inj r.valid r'.valid (initH_inj r.valid r'.valid hi)).2.1
    have hmo : maxOut a ≤ bb a := by cases a <;> decide
    have hk : (configOf a calls).key.length ≤ bb a := Nat.le_trans r.valid.2.2.1 hmo
    have hk' : (configOf a calls').key.length ≤ bb a := Nat.le_trans r'.valid.2.2.1 hmo
    unfold keyedData at hd
    by_cases he : (configOf a calls).key = []
    · have he' : (configOf a calls').key = [] := by
        apply List.eq_nil_of_length_eq_zero; rw [← hkl, he]; rfl
      rw [if_pos he, if_pos he', List.nil_append, List.nil_append] at hd
      exact ⟨he.trans he'.symm, hd, hl⟩
    · have he' : (configOf a calls').key ≠ [] := by
        intro h; apply he; apply List.eq_nil_of_length_eq_zero; rw [hkl, h]; rfl
      rw [if_neg he, if_neg he'] at hd
      obtain ⟨h1, h2⟩ := List.append_inj hd (by rw [pad_length _ _ hk, pad_length _ _ hk'])
      unfold pad at h1
      exact ⟨(List.append_inj h1 hkl).1, h2, hl⟩

/-- C40 for one and the same `Params`: different inputs give different frames. -/
theorem C40_inputs (c : Config) (x y : List Byte) (hxy : x ≠ y) :
    frames a (keyedData a c.key x) c.lastNode ≠ frames a (keyedData a c.key y) c.lastNode := by
  intro h
  exact hxy (List.append_cancel_left (frames_injective h).1)

/-- Empty input against a block of zeros, a keyed empty input against its key block as unkeyed input, a trailing zero: cases
that zero padding alone would confuse. -/
example : ([] : List Byte) ≠ List.replicate 128 0 ∧ dataBlock .b [] 0 = dataBlock .b (List.replicate 128 0) 0 ∧
    dataBlock .b [1] 0 = dataBlock .b [1, 0] 0 ∧
    keyedData .b [7] [] = keyedData .b [] (7 :: List.replicate 127 0) := by
  refine ⟨by simp, ?_, ?_, ?_⟩ <;> decide +kernel

end Blake2
