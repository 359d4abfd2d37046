import Verif.SecuritySpec
import Verif.Properties.Params
import Verif.Properties.Primitives
import Verif.Properties.Tree
/-! # Collisions of the hash come from the compression function: C43, C44, C45 -/
namespace Blake2
open Spec

variable {a : Alg}

/-! ## Helpers -/

theorem wordsToBytes_inj {h h' : Vector (Word a) 8} (e : wordsToBytes a h = wordsToBytes a h') : h = h' := by
  have key : ∀ l l' : List (Word a), l.length = l'.length →
      (l.flatMap fun x => leBytes a.wb x.toNat) = (l'.flatMap fun x => leBytes a.wb x.toNat) → l = l' := by
    intro l
    induction l with
    | nil => intro l' hl _; exact (List.eq_nil_of_length_eq_zero hl.symm).symm
    | cons x l ih =>
      intro l' hl he
      cases l' with
      | nil => cases hl
      | cons y l' =>
        rw [List.flatMap_cons, List.flatMap_cons] at he
        obtain ⟨h1, h2⟩ := List.append_inj he (by rw [leBytes_length, leBytes_length])
        have h3 := congrArg leNat h1
        rw [leNat_leBytes, leNat_leBytes] at h3
        have hw : ∀ z : Word a, z.toNat % 256 ^ a.wb = z.toNat := by
          intro z
          apply Nat.mod_eq_of_lt
          cases a
          · exact z.isLt
          · exact z.isLt
        rw [hw, hw] at h3
        rw [BitVec.eq_of_toNat_eq h3, ih l' (by simpa using hl) h2]
  exact Vector.toList_inj.1 (key _ _ (by simp) e)

theorem callsFrom_final (h : Vector (Word a) 8) (frs : List Frame) (x : Call a) (hx : x ∈ callsFrom a h frs) : x.2 ∈ frs := by
  induction frs generalizing h with
  | nil => cases hx
  | cons fr frs ih =>
    rw [callsFrom, List.mem_cons] at hx
    rcases hx with rfl | hx
    · exact List.mem_cons_self
    · exact List.mem_cons_of_mem _ (ih _ hx)

/-- The last call of a non-empty list of frames: its output is the final chaining value. -/
theorem callsFrom_last (h : Vector (Word a) 8) (frs : List Frame) (fr : Frame) (hl : frs.getLast? = some fr) :
    ∃ x ∈ callsFrom a h frs, x.2 = fr ∧ x.output = wordsToBytes a (frs.foldl (Frame.step a) h) := by
  induction frs generalizing h with
  | nil => cases hl
  | cons f frs ih =>
    cases frs with
    | nil =>
      cases hl
      exact ⟨(h, f), List.mem_cons_self, rfl, by simp only [Call.output, List.foldl]⟩
    | cons g frs =>
      rw [List.getLast?_cons_cons] at hl
      obtain ⟨x, hx, h1, h2⟩ := ih (f.step a h) hl
      exact ⟨x, List.mem_cons_of_mem _ hx, h1, h2⟩

/-- Equal numbers of calls whose last outputs agree: either the same calls, or a collision. -/
theorem collide_of_same_length (n : Nat) (h h' : Vector (Word a) 8) (frs frs' : List Frame) (hl : frs.length = frs'.length)
    (hne : frs ≠ []) (hf : ∀ fr, frs.getLast? = some fr → fr.final = true) (hf' : ∀ fr, frs'.getLast? = some fr → fr.final = true)
    (he : (wordsToBytes a (frs.foldl (Frame.step a) h)).take n = (wordsToBytes a (frs'.foldl (Frame.step a) h')).take n) :
    (h = h' ∧ frs = frs') ∨ ∃ x ∈ callsFrom a h frs, ∃ y ∈ callsFrom a h' frs', Collide n x y := by
  induction frs generalizing h h' frs' with
  | nil => exact absurd rfl hne
  | cons f frs ih =>
    cases frs' with
    | nil => cases hl
    | cons f' frs' =>
      by_cases hx : ((h, f) : Call a) = (h', f')
      · cases hx
        cases frs with
        | nil =>
          cases frs' with
          | nil => exact .inl ⟨rfl, rfl⟩
          | cons _ _ => cases hl
        | cons g frs =>
          cases frs' with
          | nil => cases hl
          | cons g' frs' =>
            rcases ih (f.step a h) (f.step a h) (g' :: frs') (by simpa using hl) (by simp)
              (fun fr e => hf fr (by rw [List.getLast?_cons_cons]; exact e))
              (fun fr e => hf' fr (by rw [List.getLast?_cons_cons]; exact e)) he with ⟨_, e⟩ | ⟨x, hx, y, hy, hc⟩
            · exact .inl ⟨rfl, by rw [e]⟩
            · exact .inr ⟨x, List.mem_cons_of_mem _ hx, y, List.mem_cons_of_mem _ hy, hc⟩
      · right
        cases frs with
        | nil =>
          cases frs' with
          | nil =>
            exact ⟨(h, f), List.mem_cons_self, (h', f'), List.mem_cons_self, hx,
              .inr ⟨hf _ rfl, hf' _ rfl, he⟩⟩
          | cons _ _ => cases hl
        | cons g frs =>
          cases frs' with
          | nil => cases hl
          | cons g' frs' =>
            rcases ih (f.step a h) (f'.step a h') (g' :: frs') (by simpa using hl) (by simp)
              (fun fr e => hf fr (by rw [List.getLast?_cons_cons]; exact e))
              (fun fr e => hf' fr (by rw [List.getLast?_cons_cons]; exact e)) he with ⟨e, _⟩ | ⟨x, hx, y, hy, hc⟩
            · exact ⟨(h, f), List.mem_cons_self, (h', f'), List.mem_cons_self, hx,
                .inl (congrArg (wordsToBytes a) e)⟩
            · exact ⟨x, List.mem_cons_of_mem _ hx, y, List.mem_cons_of_mem _ hy, hc⟩

/-- The same for the frames of two data strings below the limit of the counter. -/
theorem collide_of_data (n : Nat) (h h' : Vector (Word a) 8) (x y : List Byte) (l l' : Bool)
    (hx : x.length < 2 ^ (2 * a.w)) (hy : y.length < 2 ^ (2 * a.w))
    (he : (wordsToBytes a (process a h x l)).take n = (wordsToBytes a (process a h' y l')).take n) :
    (h = h' ∧ x = y ∧ l = l') ∨
      ∃ u ∈ callsFrom a h (frames a x l), ∃ v ∈ callsFrom a h' (frames a y l'), Collide n u v := by
  rw [process_frames, process_frames] at he
  by_cases hl : x.length = y.length
  · have hf : ∀ (z : List Byte) (m : Bool) (fr : Frame), (frames a z m).getLast? = some fr → fr.final = true := by
      intro z m fr e
      rw [frames_last] at e
      cases e
      rfl
    rcases collide_of_same_length n h h' _ _ (by rw [frames_length, frames_length, hl]) (by simp [frames]) (hf x l) (hf y l') he
      with ⟨e, e'⟩ | e
    · exact .inl ⟨e, frames_injective e'⟩
    · exact .inr e
  · right
    obtain ⟨u, hu, u1, u2⟩ := callsFrom_last h _ _ (frames_last (a := a) x l)
    obtain ⟨v, hv, v1, v2⟩ := callsFrom_last h' _ _ (frames_last (a := a) y l')
    refine ⟨u, hu, v, hv, ?_, .inr ⟨by rw [u1], by rw [v1], by rw [u2, v2]; exact he⟩⟩
    intro e
    rw [e, v1, Frame.mk.injEq, Nat.mod_eq_of_lt hx, Nat.mod_eq_of_lt hy] at u1
    exact hl u1.2.1.symm

theorem keyedData_len {key : List Byte} (hk : key.length ≤ maxOut a) (msg : List Byte) :
    (keyedData a key msg).length ≤ bb a + msg.length := by
  have hmo : maxOut a ≤ bb a := by cases a <;> decide
  unfold keyedData
  split
  · simp
  · rw [List.length_append, pad_length _ _ (by omega)]; exact Nat.le_refl _

theorem keyedData_inj {k k' x x' : List Byte} (hk : k.length ≤ maxOut a) (hl : k.length = k'.length)
    (h : keyedData a k x = keyedData a k' x') : k = k' ∧ x = x' := by
  have hmo : maxOut a ≤ bb a := by cases a <;> decide
  unfold keyedData at h
  by_cases he : k = []
  · have he' : k' = [] := by apply List.eq_nil_of_length_eq_zero; rw [← hl, he]; rfl
    rw [if_pos he, if_pos he', List.nil_append, List.nil_append] at h
    exact ⟨he.trans he'.symm, h⟩
  · have he' : k' ≠ [] := by
      intro e
      apply he
      apply List.eq_nil_of_length_eq_zero; rw [hl, e]; rfl
    rw [if_neg he, if_neg he'] at h
    obtain ⟨h1, h2⟩ := List.append_inj h (by rw [pad_length _ _ (by omega), pad_length _ _ (by omega)])
    exact ⟨(List.append_inj h1 hl).1, h2⟩

/-! ## C43 -/

/-- C43. If two uses of `Params::hash` — any parameters, any keys, any inputs within the limits of the algorithm — return the
same bytes, then either parameters and input are the same (up to the zero padding of salt and personalization), or among the
calls of the compression function that the two computations consist of there are two that are given different things and
return the same. So every collision of the hash, intended or constructed, between different inputs or different parameters, is
a collision of the compression function, and looking at the two computations finds it. -/
theorem C43_collisions (plat plat' : Platform) (calls calls' : List Setter) (p p' : Params a)
    (hb : (Params.new a plat).build calls = .ok p) (hb' : (Params.new a plat').build calls' = .ok p')
    (input input' : List Byte) (hi : bb a + input.length < 2 ^ (2 * a.w)) (hi' : bb a + input'.length < 2 ^ (2 * a.w))
    (h h' : Hash a) (d : List Byte) (hh : p.hash input = .ok h) (hh' : p'.hash input' = .ok h')
    (hd : h.asBytes = .ok d) (hd' : h'.asBytes = .ok d) :
    ((configOf a calls).padded a = (configOf a calls').padded a ∧ input = input') ∨
    ∃ x ∈ nodeCalls a (configOf a calls) input, ∃ y ∈ nodeCalls a (configOf a calls') input', Collide d.length x y := by
  obtain ⟨r, _⟩ := built_rep hb
  obtain ⟨r', _⟩ := built_rep hb'
  rw [hash_eq r] at hh
  rw [hash_eq r'] at hh'
  cases hh
  cases hh'
  rw [asBytes_full r] at hd
  rw [asBytes_full r'] at hd'
  have hd : Spec.hash a (configOf a calls) input = d := by simpa using hd
  have hd' : Spec.hash a (configOf a calls') input' = d := by simpa using hd'
  have hlen : ∀ {c : Config} (m : List Byte), c.Valid a → (Spec.hash a c m).length = c.digestLength := by
    intro c m v
    have := v.2.1
    rw [Spec.hash, List.length_take, hashFull, wordsToBytes_length, ← maxOut_eq]
    omega
  have e1 : d.length = (configOf a calls).digestLength := by rw [← hd]; exact hlen _ r.valid
  have e2 : d.length = (configOf a calls').digestLength := by rw [← hd']; exact hlen _ r'.valid
  have he : (wordsToBytes a (process a (initH a (configOf a calls)) (keyedData a (configOf a calls).key input)
      (configOf a calls).lastNode)).take d.length = (wordsToBytes a (process a (initH a (configOf a calls'))
      (keyedData a (configOf a calls').key input') (configOf a calls').lastNode)).take d.length := by
    have : Spec.hash a (configOf a calls) input = Spec.hash a (configOf a calls') input' := by rw [hd, hd']
    unfold Spec.hash hashFull at this
    rw [← e1, ← e2] at this
    exact this
  have k1 := keyedData_len (a := a) r.valid.2.2.1 input
  have k2 := keyedData_len (a := a) r'.valid.2.2.1 input'
  rcases collide_of_data d.length _ _ _ _ _ _ (by omega) (by omega) he with ⟨e, ed, el⟩ | e
  · left
    have pb := paramBlock_inj r.valid r'.valid (initH_inj r.valid r'.valid e)
    obtain ⟨q1, q2⟩ := keyedData_inj r.valid.2.2.1 pb.2.1 ed
    refine ⟨?_, q2⟩
    obtain ⟨b1, b2, b3, b4, b5, b6, b7, b8, b9, b10⟩ := pb
    unfold Config.padded
    rw [b9, b10]
    generalize configOf a calls = c at *
    generalize configOf a calls' = c' at *
    obtain ⟨c1, c2, c3, c4, c5, c6, c7, c8, c9, c10, c11⟩ := c
    obtain ⟨c1', c2', c3', c4', c5', c6', c7', c8', c9', c10', c11'⟩ := c'
    simp only at *
    subst b1 b3 b4 b5 b6 b7 b8 q1 el
    rfl
  · exact .inr e

/-- C43, the other way round: if no two different calls in the two computations have the same output, different inputs have
different hashes. -/
theorem C43_injective (plat : Platform) (calls : List Setter) (p : Params a) (hb : (Params.new a plat).build calls = .ok p)
    (input input' : List Byte) (hi : bb a + input.length < 2 ^ (2 * a.w)) (hi' : bb a + input'.length < 2 ^ (2 * a.w))
    (hne : input ≠ input')
    (hn : ∀ x ∈ nodeCalls a (configOf a calls) input, ∀ y ∈ nodeCalls a (configOf a calls) input',
      ¬ Collide (configOf a calls).digestLength x y) :
    ∃ h h' d d', p.hash input = .ok h ∧ p.hash input' = .ok h' ∧ h.asBytes = .ok d ∧ h'.asBytes = .ok d' ∧ d ≠ d' := by
  obtain ⟨r, _⟩ := built_rep hb
  refine ⟨_, _, _, _, hash_eq r input, hash_eq r input', asBytes_full r input, asBytes_full r input', fun e => ?_⟩
  have hl : (Spec.hash a (configOf a calls) input').length = (configOf a calls).digestLength := by
    have := r.valid.2.1
    rw [Spec.hash, List.length_take, hashFull, wordsToBytes_length, ← maxOut_eq]
    omega
  rcases C43_collisions plat plat calls calls p p hb hb input input' hi hi' _ _ _ (hash_eq r input) (hash_eq r input')
    (asBytes_full r input) (by rw [e]; exact asBytes_full r input') with ⟨_, e'⟩ | ⟨x, hx, y, hy, hc⟩
  · exact hne e'
  · rw [e, hl] at hc
    exact hn x hx y hy hc

/-- A salt and its padded form: the hypotheses of `C43_collisions` are met, and its first alternative holds. -/
example (input : List Byte) (hi : bb .b + input.length < 2 ^ 128) (p p' : Params .b)
    (hb : (Params.new .b .AVX2).build [.salt [1]] = .ok p) (hb' : (Params.new .b .Portable).build [.salt [1, 0]] = .ok p') :
    ∃ h h' d, p.hash input = .ok h ∧ p'.hash input = .ok h' ∧ h.asBytes = .ok d ∧ h'.asBytes = .ok d ∧
      (configOf .b [.salt [1]]).padded .b = (configOf .b [.salt [1, 0]]).padded .b := by
  obtain ⟨r, _⟩ := built_rep hb
  obtain ⟨r', _⟩ := built_rep hb'
  refine ⟨_, _, _, hash_eq r input, hash_eq r' input, asBytes_full r input, ?_, by decide⟩
  rw [asBytes_full r' input]
  have : initH .b (configOf .b [.salt [1]]) = initH .b (configOf .b [.salt [1, 0]]) := by decide +kernel
  unfold Spec.hash hashFull
  rw [this]
  rfl

/-- Two inputs, one of them of two blocks, whose calls do not collide: the hypotheses of `C43_injective` are met. -/
example : ∃ h h' d d', (Params.new .s .AVX2).hash [] = .ok h ∧ (Params.new .s .AVX2).hash (List.replicate 65 7) = .ok h' ∧
    h.asBytes = .ok d ∧ h'.asBytes = .ok d' ∧ d ≠ d' :=
  C43_injective .AVX2 [] _ rfl [] (List.replicate 65 7) (by decide) (by decide) (by decide) (by decide +kernel)

/-! ## C44 -/

theorem gather_length_le (P : Nat) (hP : 0 < P) (hb : a.bb ≤ P) (x : List Byte) : (gather a P hP x).length ≤ x.length := by
  induction hn : x.length using Nat.strongRecOn generalizing x with
  | _ n ih =>
    rw [gather_unfold]
    by_cases h : x.length ≤ P
    · rw [List.drop_eq_nil_of_le h, gather_nil, List.append_nil, List.length_take]; omega
    · have := ih (x.drop P).length (by rw [List.length_drop]; omega) _ rfl
      rw [List.length_append, List.length_take]
      rw [List.length_drop] at this
      omega

theorem leafMsg_length_le {i : Nat} (hi : i < parDegree a) (msg : List Byte) : (leafMsg a msg i).length ≤ msg.length := by
  rw [leafMsg_eq_leaf hi, leaf]
  exact Nat.le_trans (gather_length_le _ _ (bb_le_stripe a) _) (by rw [List.length_drop]; omega)

/-- Lists of equally long pieces are determined by their concatenation. -/
theorem flatMap_range_inj {n k : Nat} {f g : Nat → List Byte} (hf : ∀ i, (f i).length = k) (hg : ∀ i, (g i).length = k)
    (h : (List.range n).flatMap f = (List.range n).flatMap g) : ∀ i < n, f i = g i := by
  induction n with
  | zero => intro i hi; omega
  | succ n ih =>
    rw [List.range_succ, List.flatMap_append, List.flatMap_append] at h
    have hl : ∀ e : Nat → List Byte, (∀ i, (e i).length = k) → ((List.range n).flatMap e).length = n * k := by
      intro e he
      clear ih h
      induction n with
      | zero => simp
      | succ m ihm => rw [List.range_succ, List.flatMap_append, List.length_append, ihm]; simp [he, Nat.add_mul]
    obtain ⟨h1, h2⟩ := List.append_inj h (by rw [hl f hf, hl g hg])
    intro i hi
    by_cases e : i = n
    · subst e; simpa using h2
    · exact ih h1 i (by omega)

theorem leafConfig_valid {n : Nat} {key : List Byte} {p : PParams a} (h : PRep a n key p) {i : Nat} (hi : i < parDegree a) :
    (leafConfig a n key i).Valid a := by
  have hd : parDegree a ≤ 8 := by cases a <;> decide
  refine ⟨h.pos, h.le, h.keyLe, ?_, ?_, ?_, ?_, ?_, ?_, ?_, ?_⟩ <;>
    simp only [leafConfig, Config.default] <;> first | (cases a <;> decide) | skip
  have : i < 256 := by omega
  refine Nat.lt_of_lt_of_le this ?_
  cases a <;> decide

theorem rootConfig_valid {n : Nat} {key : List Byte} {p : PParams a} (h : PRep a n key p) : (rootConfig a n key).Valid a := by
  refine ⟨h.pos, h.le, h.keyLe, ?_, ?_, ?_, ?_, ?_, ?_, ?_, ?_⟩ <;>
    simp only [rootConfig, Config.default] <;> (cases a <;> decide)

/-- C44. If two uses of BLAKE2bp / BLAKE2sp — any digest lengths, keys and inputs within the limits of the algorithm — return
the same bytes, then either key and input are the same, or two calls of the compression function made by the same leaf in the
two computations are given different things and have the same output, or this is so for two calls made by the roots. -/
theorem C44_tree_collisions (plat plat' : Platform) (calls calls' : List PSetter) (p p' : PParams a)
    (hb : (PParams.new a plat).build calls = .ok p) (hb' : (PParams.new a plat').build calls' = .ok p')
    (input input' : List Byte) (hi : bb a + input.length < 2 ^ (2 * a.w)) (hi' : bb a + input'.length < 2 ^ (2 * a.w))
    (h h' : Hash a) (d : List Byte) (hh : p.hash input = .ok h) (hh' : p'.hash input' = .ok h')
    (hd : h.asBytes = .ok d) (hd' : h'.asBytes = .ok d) :
    ((pconfigOf a calls) = (pconfigOf a calls') ∧ input = input') ∨
    (∃ i < degree a, ∃ x ∈ leafCalls a (pconfigOf a calls).hashLength (pconfigOf a calls).key input i,
      ∃ y ∈ leafCalls a (pconfigOf a calls').hashLength (pconfigOf a calls').key input' i, x ≠ y ∧ x.output = y.output) ∨
    (∃ x ∈ rootCalls a (pconfigOf a calls).hashLength (pconfigOf a calls).key input,
      ∃ y ∈ rootCalls a (pconfigOf a calls').hashLength (pconfigOf a calls').key input', Collide d.length x y) := by
  obtain ⟨r, _⟩ := pbuilt_rep hb
  obtain ⟨r', _⟩ := pbuilt_rep hb'
  rw [PParams.hash_eq r] at hh
  rw [PParams.hash_eq r'] at hh'
  cases hh
  cases hh'
  rw [r.asBytes] at hd
  rw [r'.asBytes] at hd'
  generalize hc : pconfigOf a calls = c at *
  generalize hc' : pconfigOf a calls' = c' at *
  obtain ⟨n, key⟩ := c
  obtain ⟨n', key'⟩ := c'
  simp only at *
  have hd : Spec.hashP a n key input = d := by simpa using hd
  have hd' : Spec.hashP a n' key' input' = d := by simpa using hd'
  have hlen : ∀ {m : Nat} (k x : List Byte), m ≤ maxOut a → (Spec.hashP a m k x).length = m := by
    intro m k x hm
    rw [Spec.hashP, List.length_take, wordsToBytes_length, ← maxOut_eq]
    omega
  have e1 : d.length = n := by rw [← hd]; exact hlen _ _ r.le
  have e2 : d.length = n' := by rw [← hd']; exact hlen _ _ r'.le
  have hnn : n = n' := e1.symm.trans e2
  subst hnn
  rw [e1]
  have he : Spec.hashP a n key input = Spec.hashP a n key' input' := by rw [hd, hd']
  unfold Spec.hashP at he
  simp only at he
  have hfull : ∀ (k x : List Byte) (i : Nat), (hashFull a (leafConfig a n k i) (leafMsg a x i)).length = a.outbytes :=
    fun k x i => wordsToBytes_length _
  have hll : ∀ (k x : List Byte), ((List.range (degree a)).flatMap fun i =>
      hashFull a (leafConfig a n k i) (leafMsg a x i)).length < 2 ^ (2 * a.w) := by
    intro k x
    rw [List.length_flatMap]
    simp only [hfull]
    cases a <;> decide
  have hdeg : degree a = parDegree a := by cases a <;> rfl
  rcases collide_of_data n _ _ _ _ true true (hll key input) (hll key' input') he with ⟨e, ed, _⟩ | ⟨x, hx, y, hy, hxy⟩
  · have kl : key.length = key'.length :=
      (paramBlock_inj (rootConfig_valid r) (rootConfig_valid r') (initH_inj (rootConfig_valid r) (rootConfig_valid r') e)).2.1
    have hleaf := flatMap_range_inj (hfull key input) (hfull key' input') ed
    by_cases hall : ∀ i < degree a, key = key' ∧ leafMsg a input i = leafMsg a input' i
    · left
      have h0 := (hall 0 (by cases a <;> decide)).1
      exact ⟨by rw [h0], C39_injective input input' fun i hi => (hall i hi).2⟩
    · right
      simp only [not_forall] at hall
      obtain ⟨i, hid, hno⟩ := hall
      have hip : i < parDegree a := by rw [← hdeg]; exact hid
      have k1 := keyedData_len (a := a) r.keyLe (leafMsg a input i)
      have k2 := keyedData_len (a := a) r'.keyLe (leafMsg a input' i)
      have m1 := leafMsg_length_le hip input
      have m2 := leafMsg_length_le hip input'
      have hw := hleaf i hid
      unfold hashFull at hw
      have hw := congrArg (List.take a.outbytes) hw
      rcases collide_of_data a.outbytes _ _ _ _ _ _ (by show (keyedData a key _).length < _; omega)
        (by show (keyedData a key' _).length < _; omega) hw with ⟨_, e4, _⟩ | ⟨x, hx, y, hy, hxy⟩
      · exact absurd (keyedData_inj r.keyLe kl e4) hno
      · refine .inl ⟨i, hid, x, hx, y, hy, hxy.1, ?_⟩
        rcases hxy.2 with h | ⟨_, _, h⟩
        · exact h
        · rwa [Call.output, Call.output, List.take_of_length_le (by rw [wordsToBytes_length]; exact Nat.le_refl _),
            List.take_of_length_le (by rw [wordsToBytes_length]; exact Nat.le_refl _)] at h
  · exact .inr (.inr ⟨x, hx, y, hy, hxy⟩)

/-- Two inputs for which the hypotheses hold: the same one, on different platforms. -/
example : ∃ h h' d, (PParams.new .b .AVX2).hash [1, 2] = .ok h ∧ (PParams.new .b .Portable).hash [1, 2] = .ok h' ∧
    h.asBytes = .ok d ∧ h'.asBytes = .ok d := by
  obtain ⟨h, e, e'⟩ := C13_params .AVX2 [] _ rfl [1, 2]
  obtain ⟨k, f, f'⟩ := C13_params .Portable [] _ rfl [1, 2]
  exact ⟨h, k, _, e, f, e', f'⟩

/-- C44, the other way round: unless two calls of the compression function collide, different inputs have different hashes. -/
theorem C44_tree_injective (plat : Platform) (calls : List PSetter) (p : PParams a)
    (hb : (PParams.new a plat).build calls = .ok p) (n : Nat) (key : List Byte) (hn : n = (pconfigOf a calls).hashLength)
    (hk : key = (pconfigOf a calls).key) (input input' : List Byte)
    (hi : bb a + input.length < 2 ^ (2 * a.w)) (hi' : bb a + input'.length < 2 ^ (2 * a.w)) (hne : input ≠ input')
    (hl : ∀ i < degree a, ∀ x ∈ leafCalls a n key input i, ∀ y ∈ leafCalls a n key input' i, x.output = y.output → x = y)
    (hr : ∀ x ∈ rootCalls a n key input, ∀ y ∈ rootCalls a n key input', ¬ Collide n x y) :
    ∃ h h' d d', p.hash input = .ok h ∧ p.hash input' = .ok h' ∧ h.asBytes = .ok d ∧ h'.asBytes = .ok d' ∧ d ≠ d' := by
  subst hn hk
  obtain ⟨r, _⟩ := pbuilt_rep hb
  refine ⟨_, _, _, _, PParams.hash_eq r input, PParams.hash_eq r input', r.asBytes input, r.asBytes input', fun e => ?_⟩
  have hlen : (Spec.hashP a (pconfigOf a calls).hashLength (pconfigOf a calls).key input').length =
      (pconfigOf a calls).hashLength := by
    have := r.le
    rw [Spec.hashP, List.length_take, wordsToBytes_length, ← maxOut_eq]
    omega
  rcases C44_tree_collisions plat plat calls calls p p hb hb input input' hi hi' _ _ _ (PParams.hash_eq r input)
    (PParams.hash_eq r input') (r.asBytes input) (by rw [e]; exact r.asBytes input') with
    ⟨_, e'⟩ | ⟨i, hid, x, hx, y, hy, hc, ho⟩ | ⟨x, hx, y, hy, hc⟩
  · exact hne e'
  · exact hc (hl i hid x hx y hy ho)
  · rw [e, hlen] at hc
    exact hr x hx y hy hc

/-- Two inputs none of whose calls collide: the hypotheses of `C44_tree_injective` are met. -/
example : ∃ h h' d d', (PParams.new .b .AVX2).hash [1] = .ok h ∧ (PParams.new .b .AVX2).hash [2] = .ok h' ∧
    h.asBytes = .ok d ∧ h'.asBytes = .ok d' ∧ d ≠ d' :=
  C44_tree_injective .AVX2 [] _ rfl 64 [] rfl rfl [1] [2] (by decide) (by decide) (by decide) (by decide +kernel) (by decide +kernel)

/-! ## C45 -/

/-- C45. Exactly the last call for a message carries the final flag. -/
theorem C45_final_flag (c : Config) (msg : List Byte) :
    ∃ init last, nodeCalls a c msg = init ++ [last] ∧ last.2.final = true ∧ (∀ x ∈ init, x.2.final = false) ∧
      last.output = hashFull a c msg := by
  have key : ∀ (h : Vector (Word a) 8) (fs : List Frame) (f : Frame), f.final = true → (∀ g ∈ fs, g.final = false) →
      ∃ init last, callsFrom a h (fs ++ [f]) = init ++ [last] ∧ last.2.final = true ∧ (∀ x ∈ init, x.2.final = false) ∧
        last.output = wordsToBytes a ((fs ++ [f]).foldl (Frame.step a) h) := by
    intro h fs
    induction fs generalizing h with
    | nil =>
      intro f hf _
      exact ⟨[], (h, f), rfl, hf, by simp, by simp only [Call.output, List.nil_append, List.foldl]⟩
    | cons g fs ih =>
      intro f hf hg
      obtain ⟨init, last, e, h1, h2, h3⟩ := ih (g.step a h) f hf fun x hx => hg x (List.mem_cons_of_mem _ hx)
      refine ⟨(h, g) :: init, last, by rw [List.cons_append, callsFrom, e, List.cons_append], h1, ?_, h3⟩
      intro x hx
      rcases List.mem_cons.1 hx with rfl | hx
      · exact hg _ List.mem_cons_self
      · exact h2 x hx
  unfold nodeCalls hashFull
  rw [process_frames]
  exact key _ _ _ rfl (by simp)

/-- C45. The calls for one message are never the beginning of the calls for another, whatever parameters and keys the two are
hashed with. A chaining value that `finalize` may give away is therefore never an intermediate value of a longer computation:
hashes cannot be extended. -/
theorem C45_prefix_free (c c' : Config) (msg msg' : List Byte) (h : nodeCalls a c msg <+: nodeCalls a c' msg') :
    nodeCalls a c msg = nodeCalls a c' msg' := by
  obtain ⟨init, last, e, h1, h2, _⟩ := C45_final_flag (a := a) c msg
  obtain ⟨init', last', e', h1', h2', _⟩ := C45_final_flag (a := a) c' msg'
  rw [e, e'] at h ⊢
  obtain ⟨t, ht⟩ := h
  rcases List.eq_nil_or_concat t with rfl | ⟨t, z, rfl⟩
  · rw [List.append_nil] at ht; exact ht
  · exfalso
    rw [List.concat_eq_append, ← List.append_assoc] at ht
    have := (List.append_inj' ht rfl).1
    have hm : last ∈ init' := by rw [← this]; simp
    rw [h2' last hm] at h1
    cases h1

/-- C45 for the code. The bytes a hash computation ends with are the output of a call that carries the final flag, all calls
before it do not carry it, and the calls for `x` are a beginning of those for `y` only if `x` is `y`. -/
theorem C45_no_extension (plat : Platform) (calls : List Setter) (p : Params a) (hb : (Params.new a plat).build calls = .ok p)
    (x y : List Byte) :
    (∃ h init last, p.hash x = .ok h ∧ nodeCalls a (configOf a calls) x = init ++ [last] ∧ h.bytes = last.output ∧
      last.2.final = true ∧ ∀ z ∈ init, z.2.final = false) ∧
    (nodeCalls a (configOf a calls) x <+: nodeCalls a (configOf a calls) y → x = y) := by
  obtain ⟨r, _⟩ := built_rep hb
  constructor
  · obtain ⟨init, last, e, h1, h2, h3⟩ := C45_final_flag (a := a) (configOf a calls) x
    exact ⟨_, init, last, hash_eq r x, e, h3.symm, h1, h2⟩
  intro h
  have e := C45_prefix_free _ _ x y h
  have inj : ∀ (hh : Vector (Word a) 8) (fs gs : List Frame), callsFrom a hh fs = callsFrom a hh gs → fs = gs := by
    intro hh fs
    induction fs generalizing hh with
    | nil => intro gs h; cases gs with | nil => rfl | cons _ _ => cases h
    | cons f fs ih =>
      intro gs h
      cases gs with
      | nil => cases h
      | cons g gs =>
        simp only [callsFrom, List.cons.injEq, Prod.mk.injEq, true_and] at h
        obtain ⟨rfl, h⟩ := h
        rw [ih _ _ h]
  exact (keyedData_inj r.valid.2.2.1 rfl (frames_injective (inj _ _ _ e)).1).2

/-- Without the flag this would be false: the blocks of a one-block message are a beginning of the blocks of longer ones. -/
example : dataBlock .s (List.replicate 64 7) 0 = dataBlock .s (List.replicate 65 7) 0 ∧
    (nodeCalls .s (Config.default .s) (List.replicate 65 7)).length = 2 := by
  constructor <;> decide +kernel

end Blake2
