import Verif.Properties.Collisions
/-! # Collisions between the sequential and the tree hash: C44 -/
namespace Blake2
open Spec

variable {a : Alg}

/-- C44, across the two modes. If `Params::hash` and BLAKE2bp / BLAKE2sp — any parameters, keys and inputs within the limits
of the algorithm — return the same bytes, then either the parameters of the sequential hash are those of the root of the tree and
what it hashes is the outputs of the leaves (so that the caller has rebuilt the root, as in C52), or two calls of the
compression function in the two computations are given different things and have the same output. -/
theorem C44_cross_mode (plat plat' : Platform) (calls : List Setter) (calls' : List PSetter) (p : Params a) (p' : PParams a)
    (hb : (Params.new a plat).build calls = .ok p) (hb' : (PParams.new a plat').build calls' = .ok p')
    (input input' : List Byte) (hi : bb a + input.length < 2 ^ (2 * a.w))
    (h h' : Hash a) (d : List Byte) (hh : p.hash input = .ok h) (hh' : p'.hash input' = .ok h')
    (hd : h.asBytes = .ok d) (hd' : h'.asBytes = .ok d) :
    ((configOf a calls).digestLength = (pconfigOf a calls').hashLength ∧
      (configOf a calls).key.length = (pconfigOf a calls').key.length ∧
      (configOf a calls).fanout = degree a ∧ (configOf a calls).maxDepth = 2 ∧ (configOf a calls).leafLength = 0 ∧
      (configOf a calls).nodeOffset = 0 ∧ (configOf a calls).nodeDepth = 1 ∧ (configOf a calls).innerLength = maxOut a ∧
      (configOf a calls).lastNode = true ∧
      pad (saltBytes a) (configOf a calls).salt = List.replicate (saltBytes a) 0 ∧
      pad (saltBytes a) (configOf a calls).personal = List.replicate (saltBytes a) 0 ∧
      keyedData a (configOf a calls).key input = (List.range (degree a)).flatMap fun i =>
        hashFull a (leafConfig a (pconfigOf a calls').hashLength (pconfigOf a calls').key i) (leafMsg a input' i)) ∨
    (∃ x ∈ nodeCalls a (configOf a calls) input,
      ∃ y ∈ rootCalls a (pconfigOf a calls').hashLength (pconfigOf a calls').key input', Collide d.length x y) := by
  obtain ⟨r, _⟩ := built_rep hb
  obtain ⟨r', _⟩ := pbuilt_rep hb'
  rw [hash_eq r] at hh
  rw [PParams.hash_eq r'] at hh'
  cases hh
  cases hh'
  rw [asBytes_full r] at hd
  rw [r'.asBytes] at hd'
  generalize hc : configOf a calls = c at *
  generalize hc' : pconfigOf a calls' = c' at *
  obtain ⟨n, key⟩ := c'
  simp only at *
  have hd : Spec.hash a c input = d := by simpa using hd
  have hd' : Spec.hashP a n key input' = d := by simpa using hd'
  have e1 : d.length = c.digestLength := by
    have := r.valid.2.1
    rw [← hd, Spec.hash, List.length_take, hashFull, wordsToBytes_length, ← maxOut_eq]
    omega
  have e2 : d.length = n := by
    have := r'.le
    rw [← hd', Spec.hashP, List.length_take, wordsToBytes_length, ← maxOut_eq]
    omega
  have he : (wordsToBytes a (process a (initH a c) (keyedData a c.key input) c.lastNode)).take d.length =
      (wordsToBytes a (process a (initH a (rootConfig a n key)) ((List.range (degree a)).flatMap fun i =>
        hashFull a (leafConfig a n key i) (leafMsg a input' i)) true)).take d.length := by
    have : Spec.hash a c input = Spec.hashP a n key input' := by rw [hd, hd']
    unfold Spec.hash hashFull Spec.hashP at this
    rw [← e1, ← e2] at this
    rw [e2] at this ⊢
    exact this
  have hfull : ∀ i : Nat, (hashFull a (leafConfig a n key i) (leafMsg a input' i)).length = a.outbytes :=
    fun i => wordsToBytes_length _
  have hll : ((List.range (degree a)).flatMap fun i => hashFull a (leafConfig a n key i) (leafMsg a input' i)).length <
      2 ^ (2 * a.w) := by
    rw [List.length_flatMap]
    simp only [hfull]
    cases a <;> decide
  have k1 := keyedData_len (a := a) r.valid.2.2.1 input
  rcases collide_of_data d.length _ _ _ _ _ _ (by omega) hll he with ⟨e, ed, el⟩ | e
  · left
    obtain ⟨b1, b2, b3, b4, b5, b6, b7, b8, b9, b10⟩ :=
      paramBlock_inj r.valid (rootConfig_valid r') (initH_inj r.valid (rootConfig_valid r') e)
    refine ⟨b1, b2, b3, b4, b5, b6, b7, b8, el, ?_, ?_, ed⟩
    · rw [b9]; cases a <;> rfl
    · rw [b10]; cases a <;> rfl
  · exact .inr e

/-- C44, across the two modes, for a caller who leaves the tree parameters alone: if `blake2b(input)`, or a hash with key, salt,
personalization or digest length, equals a BLAKE2bp hash of anything, the compression function has a collision. -/
theorem C44_cross_mode_plain (plat plat' : Platform) (calls : List Setter) (calls' : List PSetter) (p : Params a) (p' : PParams a)
    (hb : (Params.new a plat).build calls = .ok p) (hb' : (PParams.new a plat').build calls' = .ok p')
    (hs : ∀ s ∈ calls, (∃ n, s = .hashLength n) ∨ (∃ k, s = .key k) ∨ (∃ k, s = .salt k) ∨ (∃ k, s = .personal k))
    (input input' : List Byte) (hi : bb a + input.length < 2 ^ (2 * a.w))
    (h h' : Hash a) (d : List Byte) (hh : p.hash input = .ok h) (hh' : p'.hash input' = .ok h')
    (hd : h.asBytes = .ok d) (hd' : h'.asBytes = .ok d) :
    ∃ x ∈ nodeCalls a (configOf a calls) input,
      ∃ y ∈ rootCalls a (pconfigOf a calls').hashLength (pconfigOf a calls').key input', Collide d.length x y := by
  rcases C44_cross_mode plat plat' calls calls' p p' hb hb' input input' hi h h' d hh hh' hd hd' with q | q
  · exfalso
    have hf : ∀ (l : List Setter) (c : Config), (∀ s ∈ l, (∃ n, s = .hashLength n) ∨ (∃ k, s = .key k) ∨ (∃ k, s = .salt k) ∨
        (∃ k, s = .personal k)) → (l.foldl Setter.apply c).fanout = c.fanout := by
      intro l
      induction l with
      | nil => intro c _; rfl
      | cons s l ih =>
        intro c hl
        have h1 := ih (Setter.apply c s) fun t ht => hl t (List.mem_cons_of_mem _ ht)
        show (l.foldl Setter.apply (Setter.apply c s)).fanout = _
        rw [h1]
        rcases hl s List.mem_cons_self with ⟨n, rfl⟩ | ⟨k, rfl⟩ | ⟨k, rfl⟩ | ⟨k, rfl⟩ <;> rfl
    have h1 : (configOf a calls).fanout = 1 := hf calls _ hs
    have h2 := q.2.2.1
    rw [h1] at h2
    cases a <;> cases h2
  · exact q

/-- A caller who rebuilds the root with the sequential API: the hypotheses of `C44_cross_mode` are met, and its first alternative
holds. -/
example : ∃ p h h' d, (Params.new .b .AVX2).build [.fanout 4, .maxDepth 2, .nodeDepth 1, .innerHashLength 64, .lastNode true] = .ok p ∧
    p.hash ((List.range 4).flatMap fun i => hashFull .b (leafConfig .b 64 [] i) (leafMsg .b [1, 2] i)) = .ok h ∧
    (PParams.new .b .Portable).hash [1, 2] = .ok h' ∧ h.asBytes = .ok d ∧ h'.asBytes = .ok d := by
  obtain ⟨p, hp⟩ : ∃ p, (Params.new .b .AVX2).build [.fanout 4, .maxDepth 2, .nodeDepth 1, .innerHashLength 64, .lastNode true] =
    .ok p := ⟨_, rfl⟩
  obtain ⟨r, _⟩ := built_rep hp
  obtain ⟨k, f, f'⟩ := C13_params .Portable [] _ rfl [1, 2]
  refine ⟨p, _, k, _, hp, hash_eq r _, f, asBytes_full r _, ?_⟩
  have e : configOf .b [.fanout 4, .maxDepth 2, .nodeDepth 1, .innerHashLength 64, .lastNode true] = rootConfig .b 64 [] := by decide
  have e' : ∀ X, Spec.hash .b (rootConfig .b 64 []) X =
      (wordsToBytes .b (process .b (initH .b (rootConfig .b 64 [])) X true)).take 64 := fun X => rfl
  have f' : k.asBytes = .ok (Spec.hashP .b 64 [] [1, 2]) := f'
  rw [e, e', f', Spec.hashP]
  rfl

/-- Digests of one byte do coincide: all hypotheses of `C44_cross_mode_plain` are met. -/
example : ∃ p p' h h' d, (Params.new .s .SSE41).build [.hashLength 1] = .ok p ∧
    (PParams.new .s .Portable).build [.hashLength 1] = .ok p' ∧ p.hash [4] = .ok h ∧ p'.hash [17] = .ok h' ∧
    h.asBytes = .ok d ∧ h'.asBytes = .ok d := by
  obtain ⟨p, hp⟩ : ∃ p, (Params.new .s .SSE41).build [.hashLength 1] = .ok p := ⟨_, rfl⟩
  obtain ⟨p', hp'⟩ : ∃ p, (PParams.new .s .Portable).build [.hashLength 1] = .ok p := ⟨_, rfl⟩
  obtain ⟨r, _⟩ := built_rep hp
  obtain ⟨k, f, f'⟩ := C13_params .Portable _ _ hp' [17]
  refine ⟨p, p', _, k, _, hp, hp', hash_eq r _, f, asBytes_full r _, ?_⟩
  have e : Spec.hash .s (configOf .s [.hashLength 1]) [4] = Spec.hashP .s 1 [] [17] := by decide +kernel
  rw [e]
  exact f'

end Blake2
