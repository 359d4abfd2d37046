import Verif.Proofs.History
/-!
# Properties of the parameter builders: C16–C19
-/
namespace Blake2
open Spec

variable {a : Alg}

/-! ## C16 -/

/-- C16. A builder method, called on any `Params` whatsoever, panics exactly when its argument is outside the documented
range, and otherwise returns. -/
theorem C16_panics_iff (p : Params a) (call : Setter) :
    (call.run p = .error .panic ↔ ¬ call.InRange a) ∧ (call.InRange a → ∃ p', call.run p = .ok p') := by
  have ok : call.InRange a → ∃ p', call.run p = .ok p' := by
    intro hr
    have hmo := maxOut_eq a
    have hsb := saltBytes_eq a
    have hkb : a.keybytes = a.outbytes := rfl
    cases call <;> simp only [Setter.InRange] at hr <;> simp only [Setter.run]
    case hashLength n =>
      rw [hmo] at hr
      exact ⟨{ p with hashLength := BitVec.ofNat 8 n }, by simp [Params.setHashLength, rassert, hr, bind, Except.bind]⟩
    case key k =>
      have hk : k.length ≤ a.keybytes := by rw [hkb, ← hmo]; exact hr
      simp only [Params.setKey, rassert, hk, decide_true, if_true, bind, Except.bind,
        copyRange_pad _ _ (Nat.le_trans hk (keybytes_le a))]
      exact ⟨_, rfl⟩
    case salt k =>
      rw [hsb] at hr
      simp only [Params.setSalt, rassert, hr, decide_true, if_true, bind, Except.bind, copyRange_pad _ _ hr]
      exact ⟨_, rfl⟩
    case personal k =>
      have hr : k.length ≤ a.personalbytes := by rw [hsb] at hr; cases a <;> exact hr
      simp only [Params.setPersonal, rassert, hr, decide_true, if_true, bind, Except.bind, copyRange_pad _ _ hr]
      exact ⟨_, rfl⟩
    case nodeOffset n =>
      cases a
      · exact ⟨_, rfl⟩
      · have : n.toNat < 1 <<< 48 := hr
        simp only [Params.setNodeOffset, rassert, this, decide_true, if_true, bind, Except.bind]
        exact ⟨_, rfl⟩
    case innerHashLength n =>
      rw [hmo] at hr
      exact ⟨{ p with innerHashLength := BitVec.ofNat 8 n }, by
        simp [Params.setInnerHashLength, rassert, hr, bind, Except.bind]⟩
    all_goals exact ⟨_, rfl⟩
  refine ⟨⟨fun h hr => ?_, run_panics p call⟩, ok⟩
  obtain ⟨p', e⟩ := ok hr
  rw [e] at h
  cases h

/-- The ranges, spelled out for the two crates. -/
example (n : Nat) : (Setter.hashLength n).InRange .b ↔ 1 ≤ n ∧ n ≤ 64 := Iff.rfl
example (n : Nat) : (Setter.hashLength n).InRange .s ↔ 1 ≤ n ∧ n ≤ 32 := Iff.rfl
example (k : List Byte) : (Setter.key k).InRange .b ↔ k.length ≤ 64 := Iff.rfl
example (k : List Byte) : (Setter.key k).InRange .s ↔ k.length ≤ 32 := Iff.rfl
example (k : List Byte) : (Setter.salt k).InRange .b ↔ k.length ≤ 16 := Iff.rfl
example (k : List Byte) : (Setter.personal k).InRange .s ↔ k.length ≤ 8 := Iff.rfl
example (n : BitVec 64) : (Setter.nodeOffset n).InRange .s ↔ n.toNat < 2 ^ 48 := Iff.rfl
example (n : BitVec 64) : (Setter.nodeOffset n).InRange .b := n.isLt
example (n : Nat) : (Setter.innerHashLength n).InRange .b ↔ n ≤ 64 := Iff.rfl
example : (Setter.hashLength 65).run (Params.new .b .AVX2) = .error .panic ∧
    (Setter.hashLength 0).run (Params.new .b .AVX2) = .error .panic ∧ (Setter.hashLength 64).InRange .b :=
  ⟨(C16_panics_iff _ _).1.2 (by decide), (C16_panics_iff _ _).1.2 (by decide), by decide⟩

/-- C16 for the tree variants. -/
theorem C16_tree_panics_iff (p : PParams a) (call : PSetter) :
    (call.run p = .error .panic ↔ ¬ call.InRange a) ∧ (call.InRange a → ∃ p', call.run p = .ok p') := by
  have ok : call.InRange a → ∃ p', call.run p = .ok p' := by
    intro hr
    have hmo := maxOut_eq a
    have hkb : a.keybytes = a.outbytes := rfl
    cases call <;> simp only [PSetter.InRange] at hr <;> simp only [PSetter.run]
    case hashLength n =>
      rw [hmo] at hr
      exact ⟨{ p with hashLength := BitVec.ofNat 8 n }, by simp [PParams.setHashLength, rassert, hr, bind, Except.bind]⟩
    case key k =>
      have hk : k.length ≤ a.keybytes := by rw [hkb, ← hmo]; exact hr
      simp only [PParams.setKey, rassert, hk, decide_true, if_true, bind, Except.bind, copyRange_pad _ _ hk]
      exact ⟨_, rfl⟩
  refine ⟨⟨fun h hr => ?_, prun_panics p call⟩, ok⟩
  obtain ⟨p', e⟩ := ok hr
  rw [e] at h
  cases h

example : ∃ p', (PSetter.key (List.replicate 32 7)).run (PParams.new .s .AVX2) = .ok p' :=
  (C16_tree_panics_iff _ _).2 (by decide)

/-! ## C17 -/

theorem Rep.unique {c c' : Config} {p p' : Params a} (h : Rep a c p) (h' : Rep a c' p')
    (hi : p.implementation = p'.implementation)
    (e1 : c.digestLength = c'.digestLength) (e2 : c.key = c'.key) (e3 : pad a.saltbytes c.salt = pad a.saltbytes c'.salt)
    (e4 : pad a.personalbytes c.personal = pad a.personalbytes c'.personal) (e5 : c.fanout = c'.fanout)
    (e6 : c.maxDepth = c'.maxDepth) (e7 : c.leafLength = c'.leafLength) (e8 : c.nodeOffset = c'.nodeOffset)
    (e9 : c.nodeDepth = c'.nodeDepth) (e10 : c.innerLength = c'.innerLength) (e11 : c.lastNode = c'.lastNode) : p = p' := by
  obtain ⟨h1, h2, h3, h4, h5, h6, h7, h8, h9, h10, h11, h12, _⟩ := h
  obtain ⟨k1, k2, k3, k4, k5, k6, k7, k8, k9, k10, k11, k12, _⟩ := h'
  cases p
  cases p'
  simp only at *
  subst h1 h2 h3 h4 h5 h6 h7 h8 h9 h10 h11 h12 k1 k2 k3 k4 k5 k6 k7 k8 k9 k10 k11 k12 hi
  rw [e1, e2, e3, e4, e5, e6, e7, e8, e9, e10, e11]

/-- Sequences of calls, both in range or both not, whose configurations agree up to zero padding, give the same result. -/
theorem build_congr (plat : Platform) (calls calls' : List Setter)
    (hr : (∀ x ∈ calls, x.InRange a) ↔ (∀ x ∈ calls', x.InRange a))
    (hc : ∀ c c' : Config, c = configOf a calls → c' = configOf a calls' →
      c' = { c with salt := c'.salt, personal := c'.personal } ∧
      pad a.saltbytes c.salt = pad a.saltbytes c'.salt ∧ pad a.personalbytes c.personal = pad a.personalbytes c'.personal) :
    (Params.new a plat).build calls = (Params.new a plat).build calls' := by
  obtain ⟨hc1, hc2, hc3⟩ := hc _ _ rfl rfl
  by_cases h : ∀ x ∈ calls, x.InRange a
  · obtain ⟨p, e, r, i⟩ := rep_build (rep_new a plat) calls h
    obtain ⟨p', e', r', i'⟩ := rep_build (rep_new a plat) calls' (hr.1 h)
    rw [e, e']
    have := Rep.unique r r' (i.trans i'.symm) (by rw [show calls'.foldl _ _ = configOf a calls' from rfl, hc1]; rfl)
      (by rw [show calls'.foldl _ _ = configOf a calls' from rfl, hc1]; rfl) hc2 hc3
      (by rw [show calls'.foldl _ _ = configOf a calls' from rfl, hc1]; rfl)
      (by rw [show calls'.foldl _ _ = configOf a calls' from rfl, hc1]; rfl)
      (by rw [show calls'.foldl _ _ = configOf a calls' from rfl, hc1]; rfl)
      (by rw [show calls'.foldl _ _ = configOf a calls' from rfl, hc1]; rfl)
      (by rw [show calls'.foldl _ _ = configOf a calls' from rfl, hc1]; rfl)
      (by rw [show calls'.foldl _ _ = configOf a calls' from rfl, hc1]; rfl)
      (by rw [show calls'.foldl _ _ = configOf a calls' from rfl, hc1]; rfl)
    rw [this]
  · have h' : ¬ ∀ x ∈ calls', x.InRange a := fun k => h (hr.2 k)
    rw [build_panics _ calls (by simpa using h) _ (rep_new a plat),
      build_panics _ calls' (by simpa using h') _ (rep_new a plat)]

/-- The parameters in terms of the last call of each method. -/
def configFrom (a : Alg) (f : Method → Option Setter) : Config where
  digestLength := match f .hashLength with | some (.hashLength n) => n | _ => maxOut a
  key := match f .key with | some (.key k) => k | _ => []
  fanout := match f .fanout with | some (.fanout n) => n.toNat | _ => 1
  maxDepth := match f .maxDepth with | some (.maxDepth n) => n.toNat | _ => 1
  leafLength := match f .maxLeafLength with | some (.maxLeafLength n) => n.toNat | _ => 0
  nodeOffset := match f .nodeOffset with | some (.nodeOffset n) => n.toNat | _ => 0
  nodeDepth := match f .nodeDepth with | some (.nodeDepth n) => n.toNat | _ => 0
  innerLength := match f .innerHashLength with | some (.innerHashLength n) => n | _ => 0
  salt := match f .salt with | some (.salt s) => s | _ => []
  personal := match f .personal with | some (.personal s) => s | _ => []
  lastNode := match f .lastNode with | some (.lastNode s) => s | _ => false

theorem lastCall_append (m : Method) (calls : List Setter) (c : Setter) :
    lastCall m (calls ++ [c]) = if c.method = m then some c else lastCall m calls := by
  unfold lastCall
  rw [List.reverse_append, List.reverse_singleton, List.singleton_append, List.find?_cons]
  by_cases h : c.method = m <;> simp [h]

theorem configOf_append (calls : List Setter) (c : Setter) :
    configOf a (calls ++ [c]) = c.apply (configOf a calls) := by
  simp [configOf, List.foldl_append]

theorem configOf_eq_configFrom (calls : List Setter) : configOf a calls = configFrom a (fun m => lastCall m calls) := by
  rw [← List.reverse_reverse calls]
  generalize calls.reverse = l
  induction l with
  | nil => rfl
  | cons c l ih =>
    rw [List.reverse_cons, configOf_append, ih]
    simp only [lastCall_append]
    cases c <;> simp only [Setter.apply, configFrom, Setter.method, reduceCtorEq, if_false, if_true]

theorem lastCall_append_list (m : Method) (xs ys : List Setter) :
    lastCall m (xs ++ ys) = (lastCall m ys).or (lastCall m xs) := by
  simp [lastCall, List.reverse_append, List.find?_append]

theorem lastCall_none {m : Method} {xs : List Setter} (h : ∀ x ∈ xs, x.method ≠ m) : lastCall m xs = none := by
  simp only [lastCall, List.find?_eq_none, List.mem_reverse, decide_eq_true_eq]
  exact h

/-- C17. An empty key, salt or personalization is the same as none. -/
theorem C17_empty (plat : Platform) (pre post : List Setter) :
    ((∀ x ∈ pre, x.method ≠ .key) →
      (Params.new a plat).build (pre ++ .key [] :: post) = (Params.new a plat).build (pre ++ post)) ∧
    ((∀ x ∈ pre, x.method ≠ .salt) →
      (Params.new a plat).build (pre ++ .salt [] :: post) = (Params.new a plat).build (pre ++ post)) ∧
    ((∀ x ∈ pre, x.method ≠ .personal) →
      (Params.new a plat).build (pre ++ .personal [] :: post) = (Params.new a plat).build (pre ++ post)) := by
  have main : ∀ (c : Setter) (d : Config → Config), (∀ x, d x = x) → c.InRange a →
      (configOf a pre = c.apply (configOf a pre)) →
      (Params.new a plat).build (pre ++ c :: post) = (Params.new a plat).build (pre ++ post) := by
    intro c _ _ hin hcfg
    apply build_congr
    · constructor
      · intro h x hx
        apply h
        simp only [List.mem_append, List.mem_cons] at hx ⊢
        rcases hx with h | h <;> simp [h]
      · intro h x hx
        simp only [List.mem_append, List.mem_cons] at hx
        rcases hx with h' | rfl | h'
        · exact h x (by simp [h'])
        · exact hin
        · exact h x (by simp [h'])
    · rintro _ _ rfl rfl
      have : configOf a (pre ++ c :: post) = configOf a (pre ++ post) := by
        unfold configOf at hcfg ⊢
        rw [List.foldl_append, List.foldl_cons, List.foldl_append, ← hcfg]
      rw [this]
      exact ⟨rfl, rfl, rfl⟩
  refine ⟨fun h => ?_, fun h => ?_, fun h => ?_⟩
  · refine main (.key []) id (fun _ => rfl) (Nat.zero_le _) ?_
    have hk : (configOf a pre).key = [] := by rw [configOf_eq_configFrom]; simp only [configFrom, lastCall_none h]
    rw [Setter.apply, ← hk]
  · refine main (.salt []) id (fun _ => rfl) (Nat.zero_le _) ?_
    have hk : (configOf a pre).salt = [] := by rw [configOf_eq_configFrom]; simp only [configFrom, lastCall_none h]
    rw [Setter.apply, ← hk]
  · refine main (.personal []) id (fun _ => rfl) (Nat.zero_le _) ?_
    have hk : (configOf a pre).personal = [] := by rw [configOf_eq_configFrom]; simp only [configFrom, lastCall_none h]
    rw [Setter.apply, ← hk]

theorem pad_pad (n : Nat) (x : List Byte) : pad n (pad n x) = pad n x := by
  unfold pad
  simp only [List.length_append, List.length_replicate]
  have : n - (x.length + (n - x.length)) = 0 := by omega
  rw [this]; simp

theorem configFrom_congr {f g : Method → Option Setter} (h : ∀ m, m ≠ .salt → m ≠ .personal → f m = g m) :
    configFrom a g = { configFrom a f with salt := (configFrom a g).salt, personal := (configFrom a g).personal } := by
  unfold configFrom
  rw [h .hashLength (by decide) (by decide), h .key (by decide) (by decide), h .fanout (by decide) (by decide),
    h .maxDepth (by decide) (by decide), h .maxLeafLength (by decide) (by decide), h .nodeOffset (by decide) (by decide),
    h .nodeDepth (by decide) (by decide), h .innerHashLength (by decide) (by decide), h .lastNode (by decide) (by decide)]

theorem lastCall_middle {m : Method} {pre post : List Setter} {c : Setter} (h : c.method ≠ m) :
    lastCall m (pre ++ c :: post) = lastCall m (pre ++ post) := by
  have h1 : lastCall m [c] = none := lastCall_none (by simpa using h)
  rw [show pre ++ c :: post = pre ++ ([c] ++ post) from by simp, lastCall_append_list, lastCall_append_list, h1,
    lastCall_append_list, Option.or_none]

theorem lastCall_middle_same {m : Method} {pre post : List Setter} {c : Setter} (h : c.method = m) :
    lastCall m (pre ++ c :: post) = (lastCall m post).or (some c) := by
  have h1 : lastCall m [c] = some c := by simp [lastCall, h]
  rw [show pre ++ c :: post = pre ++ ([c] ++ post) from by simp, lastCall_append_list, lastCall_append_list, h1]
  cases lastCall m post <;> rfl

/-- C17. A salt or personalization shorter than its maximum is the same as its zero padding. -/
theorem C17_padding (plat : Platform) (pre post : List Setter) (s : List Byte) (hs : s.length ≤ saltBytes a) :
    (Params.new a plat).build (pre ++ .salt s :: post) =
      (Params.new a plat).build (pre ++ .salt (pad (saltBytes a) s) :: post) ∧
    (Params.new a plat).build (pre ++ .personal s :: post) =
      (Params.new a plat).build (pre ++ .personal (pad (saltBytes a) s) :: post) := by
  have hl : (pad (saltBytes a) s).length ≤ saltBytes a := Nat.le_of_eq (pad_length _ _ hs)
  have hmem : ∀ (c c' : Setter), c.InRange a → c'.InRange a →
      ((∀ x ∈ pre ++ c :: post, x.InRange a) ↔ ∀ x ∈ pre ++ c' :: post, x.InRange a) := by
    intro c c' h h'
    simp only [List.mem_append, List.mem_cons]
    constructor <;> intro H x hx <;> rcases hx with hx | rfl | hx
    · exact H x (.inl hx)
    · assumption
    · exact H x (.inr (.inr hx))
    · exact H x (.inl hx)
    · assumption
    · exact H x (.inr (.inr hx))
  have hsb := saltBytes_eq a
  have hpb : a.personalbytes = saltBytes a := by cases a <;> rfl
  constructor
  · apply build_congr
    · exact hmem _ _ hs hl
    · rintro _ _ rfl rfl
      rw [configOf_eq_configFrom, configOf_eq_configFrom]
      refine ⟨configFrom_congr fun m h1 h2 => ?_, ?_, ?_⟩
      · rw [lastCall_middle (Ne.symm h1), lastCall_middle (Ne.symm h1)]
      · simp only [configFrom]
        rw [lastCall_middle_same (m := .salt) (c := .salt s) rfl, lastCall_middle_same (m := .salt) (c := .salt _) rfl]
        cases e : lastCall .salt post with
        | none => simp only [Option.none_or]; rw [← hsb, pad_pad]
        | some c => simp only [Option.some_or]
      · simp only [configFrom]
        rw [lastCall_middle (c := .salt s) (by simp [Setter.method]), lastCall_middle (c := .salt _) (by simp [Setter.method])]
  · apply build_congr
    · exact hmem _ _ hs hl
    · rintro _ _ rfl rfl
      rw [configOf_eq_configFrom, configOf_eq_configFrom]
      refine ⟨configFrom_congr fun m h1 h2 => ?_, ?_, ?_⟩
      · rw [lastCall_middle (Ne.symm h2), lastCall_middle (Ne.symm h2)]
      · simp only [configFrom]
        rw [lastCall_middle (c := .personal s) (by simp [Setter.method]), lastCall_middle (c := .personal _) (by simp [Setter.method])]
      · simp only [configFrom]
        rw [lastCall_middle_same (m := .personal) (c := .personal s) rfl,
          lastCall_middle_same (m := .personal) (c := .personal _) rfl]
        cases e : lastCall .personal post with
        | none => simp only [Option.none_or]; rw [hpb, pad_pad]
        | some c => simp only [Option.some_or]

example : (Params.new .b .AVX2).build [.key [7], .salt [1, 2], .fanout 2] =
    (Params.new .b .AVX2).build [.key [7], .salt [1, 2, 0, 0, 0, 0, 0, 0, 0, 0, 0, 0, 0, 0, 0, 0], .fanout 2] :=
  (C17_padding .AVX2 [.key [7]] [.fanout 2] [1, 2] (by decide)).1
example : (Params.new .s .AVX2).build [.salt [7], .key [], .fanout 2] = (Params.new .s .AVX2).build [.salt [7], .fanout 2] :=
  (C17_empty .AVX2 [.salt [7]] [.fanout 2]).1 (by decide)

/-! ## C18 -/

/-- C18. What a sequence of calls builds is determined by the last call of each method: order between methods is
irrelevant, and of several calls of the same method the last one wins. -/
theorem C18_last_call_wins (plat : Platform) (calls calls' : List Setter)
    (hr : ∀ x ∈ calls, x.InRange a) (hr' : ∀ x ∈ calls', x.InRange a)
    (h : ∀ m, lastCall m calls = lastCall m calls') :
    ∃ p, (Params.new a plat).build calls = .ok p ∧ (Params.new a plat).build calls' = .ok p := by
  obtain ⟨p, e, _⟩ := rep_build (rep_new a plat) calls hr
  refine ⟨p, e, ?_⟩
  rw [← e]
  apply build_congr
  · exact ⟨fun _ => hr, fun _ => hr'⟩
  · rintro _ _ rfl rfl
    have : configOf a calls' = configOf a calls := by
      rw [configOf_eq_configFrom, configOf_eq_configFrom]
      congr 1
      funext m
      exact (h m).symm
    rw [this]
    exact ⟨rfl, rfl, rfl⟩

/-- C17. Setting a parameter again completely replaces the earlier value; nothing of it survives. -/
theorem C17_replaced (plat : Platform) (pre mid post : List Setter) (old new : Setter) (hm : old.method = new.method)
    (hold : old.InRange a) :
    (Params.new a plat).build (pre ++ old :: mid ++ new :: post) = (Params.new a plat).build (pre ++ mid ++ new :: post) := by
  apply build_congr
  · simp only [List.mem_append, List.mem_cons]
    constructor
    · rintro H x (h | rfl | h)
      · rcases h with h | h
        · exact H x (.inl (.inl h))
        · exact H x (.inl (.inr (.inr h)))
      · exact H _ (.inr (.inl rfl))
      · exact H x (.inr (.inr h))
    · rintro H x ((h | rfl | h) | rfl | h)
      · exact H x (.inl (.inl h))
      · exact hold
      · exact H x (.inl (.inr h))
      · exact H _ (.inr (.inl rfl))
      · exact H x (.inr (.inr h))
  · rintro _ _ rfl rfl
    have : configOf a (pre ++ mid ++ new :: post) = configOf a (pre ++ old :: mid ++ new :: post) := by
      rw [configOf_eq_configFrom, configOf_eq_configFrom]
      congr 1
      funext m
      by_cases hn : new.method = m
      · rw [lastCall_middle_same hn, lastCall_middle_same hn]
      · rw [lastCall_middle hn, lastCall_middle hn, List.append_assoc pre (old :: mid) post, List.cons_append,
          lastCall_middle (c := old) (by rw [hm]; exact hn), List.append_assoc]
    rw [this]
    exact ⟨rfl, rfl, rfl⟩

/-- A 64-byte key replaced by a shorter one. -/
example : (Params.new .b .AVX2).build [.key (List.replicate 64 0xff), .fanout 3, .key [1]] =
    (Params.new .b .AVX2).build [.fanout 3, .key [1]] :=
  C17_replaced .AVX2 [] [.fanout 3] [] (.key (List.replicate 64 0xff)) (.key [1]) rfl (by decide)
example : ∃ p, (Params.new .b .AVX2).build [.fanout 3, .key [1]] = .ok p :=
  let ⟨p, h, _⟩ := rep_build (rep_new .b .AVX2) [.fanout 3, .key [1]] (by decide)
  ⟨p, h⟩

theorem find?_perm {α : Type} {f : α → Bool} {l l' : List α} (h : l.Perm l')
    (hu : l.Pairwise fun x y => ¬ (f x = true ∧ f y = true)) : l.find? f = l'.find? f := by
  induction h with
  | nil => rfl
  | cons x h ih =>
    rw [List.pairwise_cons] at hu
    rw [List.find?_cons, List.find?_cons, ih hu.2]
  | swap x y l =>
    rw [List.pairwise_cons] at hu
    have := hu.1 x (by simp)
    simp only [List.find?_cons]
    cases hx : f x <;> cases hy : f y <;> simp_all
  | trans h1 h2 ih1 ih2 =>
    rw [ih1 hu]
    exact ih2 ((h1.pairwise_iff (fun {x y} h => fun k => h ⟨k.2, k.1⟩)).1 hu)

/-- C18. Calls of different methods may be made in any order: any permutation has the same outcome, panics included. -/
theorem C18_commute (plat : Platform) (calls calls' : List Setter) (hperm : calls.Perm calls')
    (hd : (calls.map Setter.method).Nodup) :
    (Params.new a plat).build calls = (Params.new a plat).build calls' := by
  apply build_congr
  · exact ⟨fun h x hx => h x (hperm.mem_iff.2 hx), fun h x hx => h x (hperm.mem_iff.1 hx)⟩
  · rintro _ _ rfl rfl
    have : configOf a calls' = configOf a calls := by
      rw [configOf_eq_configFrom, configOf_eq_configFrom]
      congr 1
      funext m
      unfold lastCall
      symm
      apply find?_perm ((List.reverse_perm _).trans (hperm.trans (List.reverse_perm _).symm))
      rw [List.pairwise_reverse]
      rw [List.nodup_iff_pairwise_ne, List.pairwise_map] at hd
      exact hd.imp fun {x y} h k => h (by simp only [decide_eq_true_eq] at k; rw [k.1, k.2])
    rw [this]
    exact ⟨rfl, rfl, rfl⟩

example : (Params.new .s .SSE41).build [.key [1, 2], .salt [3], .lastNode true] =
    (Params.new .s .SSE41).build [.lastNode true, .key [1, 2], .salt [3]] :=
  C18_commute .SSE41 _ _ (by
    refine (List.Perm.cons _ (List.Perm.swap _ _ _)).trans (List.Perm.swap _ _ _)) (by decide)

theorem PSetter.key_run (p : PParams a) (k : List Byte) (h : k.length ≤ maxOut a) :
    (PSetter.key k).run p = .ok { p with keyLength := BitVec.ofNat 8 k.length, key := pad a.keybytes k } := by
  have hk : k.length ≤ a.keybytes := by rw [show a.keybytes = a.outbytes from rfl, ← maxOut_eq]; exact h
  simp only [PSetter.run, PParams.setKey, rassert, hk, decide_true, if_true, bind, Except.bind, copyRange_pad _ _ hk]

theorem PSetter.hashLength_run (p : PParams a) (n : Nat) (h : 1 ≤ n ∧ n ≤ maxOut a) :
    (PSetter.hashLength n).run p = .ok { p with hashLength := BitVec.ofNat 8 n } := by
  rw [maxOut_eq] at h
  simp [PSetter.run, PParams.setHashLength, rassert, h, bind, Except.bind]

theorem pbuild_panics (plat : Platform) (calls : List PSetter) (hr : ∃ x ∈ calls, ¬ x.InRange a) :
    (PParams.new a plat).build calls = .error .panic := by
  have : ∀ p : PParams a, p.build calls = .error .panic := by
    induction calls with
    | nil => obtain ⟨x, hx, _⟩ := hr; cases hx
    | cons y ys ih =>
      intro p
      rw [PParams.build, List.foldlM_cons]
      by_cases hy : y.InRange a
      · obtain ⟨p', e⟩ : ∃ p', y.run p = .ok p' := (C16_tree_panics_iff p y).2 hy
        rw [e]
        apply ih
        obtain ⟨x, hx, hxr⟩ := hr
        rcases List.mem_cons.1 hx with rfl | hx
        · exact absurd hy hxr
        · exact ⟨x, hx, hxr⟩
      · rw [prun_panics p y hy]; rfl
  exact this _

/-- Sequences of calls, both in range or both not, with the same configuration, give the same result. -/
theorem pbuild_congr (plat : Platform) (calls calls' : List PSetter)
    (hr : (∀ x ∈ calls, x.InRange a) ↔ (∀ x ∈ calls', x.InRange a)) (hc : pconfigOf a calls = pconfigOf a calls') :
    (PParams.new a plat).build calls = (PParams.new a plat).build calls' := by
  have hn : PRep a (PConfig.default a).hashLength (PConfig.default a).key (PParams.new a plat) := prep_new a plat
  by_cases h : ∀ x ∈ calls, x.InRange a
  · obtain ⟨p, e, r, i⟩ := prep_build hn calls h
    obtain ⟨p', e', r', i'⟩ := prep_build hn calls' (hr.1 h)
    rw [e, e']
    rw [show calls.foldl PSetter.apply (PConfig.default a) = pconfigOf a calls from rfl, hc] at r
    rw [show calls'.foldl PSetter.apply (PConfig.default a) = pconfigOf a calls' from rfl] at r'
    have hi := i.trans i'.symm
    obtain ⟨h1, h2, h3, _⟩ := r
    obtain ⟨k1, k2, k3, _⟩ := r'
    cases p
    cases p'
    simp only at *
    subst h1 h2 h3 k1 k2 k3 hi
    rfl
  · have h' : ¬ ∀ x ∈ calls', x.InRange a := fun k => h (hr.2 k)
    rw [pbuild_panics _ calls (by simpa using h), pbuild_panics _ calls' (by simpa using h')]

/-- The parameters in terms of the last call of each method. -/
def pconfigFrom (a : Alg) (f : PMethod → Option PSetter) : PConfig where
  hashLength := match f .hashLength with | some (.hashLength n) => n | _ => maxOut a
  key := match f .key with | some (.key k) => k | _ => []

theorem plastCall_append_list (m : PMethod) (xs ys : List PSetter) :
    plastCall m (xs ++ ys) = (plastCall m ys).or (plastCall m xs) := by
  simp [plastCall, List.reverse_append, List.find?_append]

theorem plastCall_single (m : PMethod) (c : PSetter) : plastCall m [c] = if c.method = m then some c else none := by
  by_cases h : c.method = m <;> simp [plastCall, h]

theorem pconfigOf_eq (calls : List PSetter) : pconfigOf a calls = pconfigFrom a (fun m => plastCall m calls) := by
  rw [← List.reverse_reverse calls]
  generalize calls.reverse = l
  induction l with
  | nil => rfl
  | cons c l ih =>
    rw [List.reverse_cons, pconfigOf, List.foldl_append]
    rw [pconfigOf] at ih
    rw [ih]
    simp only [plastCall_append_list, plastCall_single, List.foldl_cons, List.foldl_nil]
    cases c <;> simp [PSetter.apply, pconfigFrom, PSetter.method]

theorem plastCall_middle {m : PMethod} {pre post : List PSetter} {c : PSetter} (h : c.method ≠ m) :
    plastCall m (pre ++ c :: post) = plastCall m (pre ++ post) := by
  rw [show pre ++ c :: post = pre ++ ([c] ++ post) from by simp, plastCall_append_list, plastCall_append_list,
    plastCall_single, if_neg h, plastCall_append_list, Option.or_none]

theorem plastCall_middle_same {m : PMethod} {pre post : List PSetter} {c : PSetter} (h : c.method = m) :
    plastCall m (pre ++ c :: post) = (plastCall m post).or (some c) := by
  rw [show pre ++ c :: post = pre ++ ([c] ++ post) from by simp, plastCall_append_list, plastCall_append_list,
    plastCall_single, if_pos h]
  cases plastCall m post <;> rfl

/-- C18 for the tree variants: what a sequence of calls builds is determined by the last call of each method. -/
theorem C18_tree_last_call_wins (plat : Platform) (calls calls' : List PSetter)
    (hr : ∀ x ∈ calls, x.InRange a) (hr' : ∀ x ∈ calls', x.InRange a) (h : ∀ m, plastCall m calls = plastCall m calls') :
    ∃ p, (PParams.new a plat).build calls = .ok p ∧ (PParams.new a plat).build calls' = .ok p := by
  obtain ⟨p, e, _⟩ := prep_build (c := PConfig.default a) (prep_new a plat) calls hr
  refine ⟨p, e, ?_⟩
  rw [← e]
  apply pbuild_congr plat _ _ ⟨fun _ => hr, fun _ => hr'⟩
  rw [pconfigOf_eq, pconfigOf_eq]
  congr 1
  funext m
  exact (h m).symm

example : ∃ p, (PParams.new .b .AVX2).build [.key [1], .hashLength 3, .key [2], .hashLength 20] = .ok p ∧
    (PParams.new .b .AVX2).build [.hashLength 20, .key [2]] = .ok p :=
  C18_tree_last_call_wins .AVX2 _ _ (by decide) (by decide) (fun m => by cases m <;> rfl)

/-- C18 for the tree variants: calls of different methods commute wherever they stand in a sequence, and whatever `Params` it
starts from, panics included. -/
theorem C18_tree_commute (p : PParams a) (pre post : List PSetter) (n : Nat) (k : List Byte) :
    p.build (pre ++ .hashLength n :: .key k :: post) = p.build (pre ++ .key k :: .hashLength n :: post) := by
  simp only [PParams.build, List.foldlM_append, List.foldlM_cons]
  congr 1
  funext q
  by_cases h1 : (PSetter.hashLength n).InRange a <;> by_cases h2 : (PSetter.key k).InRange a
  · simp only [PSetter.key_run _ _ h2, PSetter.hashLength_run _ _ h1, bind, Except.bind]
  · simp only [prun_panics _ _ h2, PSetter.hashLength_run _ _ h1, bind, Except.bind]
  · simp only [PSetter.key_run _ _ h2, prun_panics _ _ h1, bind, Except.bind]
  · simp only [prun_panics _ _ h2, prun_panics _ _ h1, bind, Except.bind]

/-- C17 for the tree variants: setting a parameter again completely replaces the earlier value. -/
theorem C17_tree_replaced (plat : Platform) (pre mid post : List PSetter) (old new : PSetter) (hm : old.method = new.method)
    (hold : old.InRange a) :
    (PParams.new a plat).build (pre ++ old :: mid ++ new :: post) = (PParams.new a plat).build (pre ++ mid ++ new :: post) := by
  apply pbuild_congr
  · simp only [List.mem_append, List.mem_cons]
    constructor
    · rintro H x (h | rfl | h)
      · rcases h with h | h
        · exact H x (.inl (.inl h))
        · exact H x (.inl (.inr (.inr h)))
      · exact H _ (.inr (.inl rfl))
      · exact H x (.inr (.inr h))
    · rintro H x ((h | rfl | h) | rfl | h)
      · exact H x (.inl (.inl h))
      · exact hold
      · exact H x (.inl (.inr h))
      · exact H _ (.inr (.inl rfl))
      · exact H x (.inr (.inr h))
  · rw [pconfigOf_eq, pconfigOf_eq]
    congr 1
    funext m
    by_cases hn : new.method = m
    · rw [plastCall_middle_same hn, plastCall_middle_same hn]
    · rw [plastCall_middle hn, plastCall_middle hn, List.append_assoc pre (old :: mid) post, List.cons_append,
        plastCall_middle (c := old) (by rw [hm]; exact hn), List.append_assoc]

/-- C17 for the tree variants: an empty key is no key. -/
theorem C17_tree_empty (plat : Platform) (pre post : List PSetter) (h : ∀ x ∈ pre, x.method ≠ .key) :
    (PParams.new a plat).build (pre ++ .key [] :: post) = (PParams.new a plat).build (pre ++ post) := by
  apply pbuild_congr
  · simp only [List.mem_append, List.mem_cons]
    constructor
    · rintro H x (h | h)
      · exact H x (.inl h)
      · exact H x (.inr (.inr h))
    · rintro H x (h | rfl | h)
      · exact H x (.inl h)
      · exact Nat.zero_le _
      · exact H x (.inr h)
  · have hk : plastCall .key pre = none := by
      simp only [plastCall, List.find?_eq_none, List.mem_reverse, decide_eq_true_eq]
      exact h
    rw [pconfigOf_eq, pconfigOf_eq]
    simp only [pconfigFrom]
    rw [plastCall_middle (m := .hashLength) (c := .key []) (by decide), plastCall_middle_same (m := .key) (c := .key []) rfl,
      plastCall_append_list .key pre post, hk]
    cases plastCall .key post <;> rfl

example : (PParams.new .b .AVX2).build [.key (List.replicate 64 9), .hashLength 5, .key [1]] =
    (PParams.new .b .AVX2).build [.hashLength 5, .key [1]] :=
  C17_tree_replaced .AVX2 [] [.hashLength 5] [] (.key _) (.key [1]) rfl (by decide)
example : (PParams.new .b .AVX2).build [.hashLength 5, .key [], .hashLength 6] =
    (PParams.new .b .AVX2).build [.hashLength 5, .hashLength 6] :=
  C17_tree_empty .AVX2 [.hashLength 5] [.hashLength 6] (by decide)
example : ∃ p, (PParams.new .b .AVX2).build [.key [1]] = .ok p :=
  let ⟨p, h, _⟩ := prep_build (c := PConfig.default .b) (prep_new .b .AVX2) [.key [1]] (by decide)
  ⟨p, h⟩

/-! ## C19 -/

theorem paramBlock_length {c : Config} (v : c.Valid a) : (paramBlock a c).length = 8 * a.wb := by
  obtain ⟨_, _, _, _, _, _, _, _, _, v10, v11⟩ := v
  cases a <;>
  · simp only [paramBlock, List.length_append, List.length_cons, List.length_nil, leBytes_length, List.length_replicate,
      pad_length _ _ v10, pad_length _ _ v11]
    rfl

theorem eq_of_chunks (n k : Nat) {l r : List Byte} (hl : l.length = k * n) (hr : r.length = k * n)
    (h : ∀ i < k, (l.drop (i * n)).take n = (r.drop (i * n)).take n) : l = r := by
  induction k generalizing l r with
  | zero =>
    rw [Nat.zero_mul] at hl hr
    rw [List.eq_nil_of_length_eq_zero hl, List.eq_nil_of_length_eq_zero hr]
  | succ k ih =>
    rw [← List.take_append_drop n l, ← List.take_append_drop n r]
    have h0 := h 0 (Nat.succ_pos _)
    rw [Nat.zero_mul, List.drop_zero, List.drop_zero] at h0
    rw [h0]
    congr 1
    apply ih
    · rw [List.length_drop, hl, Nat.add_mul, Nat.one_mul]; omega
    · rw [List.length_drop, hr, Nat.add_mul, Nat.one_mul]; omega
    · intro i hi
      have := h (i + 1) (by omega)
      rw [Nat.add_mul, Nat.one_mul, Nat.add_comm] at this
      rwa [List.drop_drop, List.drop_drop]

theorem initH_inj {c c' : Config} (v : c.Valid a) (v' : c'.Valid a) (h : initH a c = initH a c') :
    paramBlock a c = paramBlock a c' := by
  apply eq_of_chunks a.wb 8 (paramBlock_length v) (paramBlock_length v')
  intro i hi
  have hlen : ∀ {d : Config}, d.Valid a → (((paramBlock a d).drop (i * a.wb)).take a.wb).length = a.wb := by
    intro d vd
    rw [List.length_take, List.length_drop, paramBlock_length vd]
    have : (i + 1) * a.wb ≤ 8 * a.wb := Nat.mul_le_mul_right _ hi
    rw [Nat.add_mul, Nat.one_mul] at this
    omega
  have hi' : (initH a c)[i] = (initH a c')[i] := by rw [h]
  simp only [initH, Vector.getElem_ofFn] at hi'
  have h2 := congrArg (fun x => (iv a)[i] ^^^ x) hi'
  simp only [← BitVec.xor_assoc] at h2
  rw [show (iv a)[(⟨i, hi⟩ : Fin 8)] = (iv a)[i] from rfl, BitVec.xor_self, BitVec.zero_xor, BitVec.zero_xor] at h2
  have h3 := congrArg BitVec.toNat h2
  rw [BitVec.toNat_ofNat, BitVec.toNat_ofNat] at h3
  have hb : ∀ l : List Byte, l.length = a.wb → leNat l < 2 ^ a.w := by
    intro l hl
    have := leNat_lt l
    rw [hl] at this
    cases a <;> exact this
  rw [Nat.mod_eq_of_lt (hb _ (hlen v)), Nat.mod_eq_of_lt (hb _ (hlen v'))] at h3
  exact leNat_inj (by rw [hlen v, hlen v']) h3

theorem leBytes_inj {n x y : Nat} (hx : x < 256 ^ n) (hy : y < 256 ^ n) (h : leBytes n x = leBytes n y) : x = y := by
  have := congrArg leNat h
  rwa [leNat_leBytes, leNat_leBytes, Nat.mod_eq_of_lt hx, Nat.mod_eq_of_lt hy] at this

theorem ofNat8_inj {x y : Nat} (hx : x < 256) (hy : y < 256) (h : BitVec.ofNat 8 x = BitVec.ofNat 8 y) : x = y := by
  have := congrArg BitVec.toNat h
  rwa [BitVec.toNat_ofNat, BitVec.toNat_ofNat, Nat.mod_eq_of_lt (by simpa using hx), Nat.mod_eq_of_lt (by simpa using hy)]
    at this

/-- The parameter block determines every parameter it contains. -/
theorem paramBlock_inj {c c' : Config} (v : c.Valid a) (v' : c'.Valid a) (h : paramBlock a c = paramBlock a c') :
    c.digestLength = c'.digestLength ∧ c.key.length = c'.key.length ∧ c.fanout = c'.fanout ∧ c.maxDepth = c'.maxDepth ∧
    c.leafLength = c'.leafLength ∧ c.nodeOffset = c'.nodeOffset ∧ c.nodeDepth = c'.nodeDepth ∧
    c.innerLength = c'.innerLength ∧ pad (saltBytes a) c.salt = pad (saltBytes a) c'.salt ∧
    pad (saltBytes a) c.personal = pad (saltBytes a) c'.personal := by
  obtain ⟨v1, v2, v3, v4, v5, v6, v7, v8, v9, v10, v11⟩ := v
  obtain ⟨w1, w2, w3, w4, w5, w6, w7, w8, w9, w10, w11⟩ := v'
  have hmo : maxOut a < 256 := by cases a <;> decide
  unfold paramBlock at h
  obtain ⟨h, hP⟩ := List.append_inj' h (by rw [pad_length _ _ v11, pad_length _ _ w11])
  obtain ⟨h, hS⟩ := List.append_inj' h (by rw [pad_length _ _ v10, pad_length _ _ w10])
  obtain ⟨h, _⟩ := List.append_inj' h rfl
  obtain ⟨h, hD⟩ := List.append_inj' h rfl
  obtain ⟨h, hO⟩ := List.append_inj' h (by simp)
  obtain ⟨h, hL⟩ := List.append_inj' h (by simp)
  simp only [List.cons.injEq, and_true] at h hD
  have hO' : ∀ n, n < 2 ^ (8 * nodeOffsetBytes a) → n < 256 ^ nodeOffsetBytes a := by
    intro n hn; rw [Nat.pow_mul] at hn; exact hn
  refine ⟨ofNat8_inj (by omega) (by omega) h.1, ofNat8_inj (by omega) (by omega) h.2.1,
    ofNat8_inj v4 w4 h.2.2.1, ofNat8_inj v5 w5 h.2.2.2, leBytes_inj v6 w6 hL, leBytes_inj (hO' _ v7) (hO' _ w7) hO,
    ofNat8_inj v8 w8 hD.1, ofNat8_inj (by omega) (by omega) hD.2, hS, hP⟩

theorem paramBlock_congr {c c' : Config}
    (h : c.digestLength = c'.digestLength ∧ c.key.length = c'.key.length ∧ c.fanout = c'.fanout ∧
    c.maxDepth = c'.maxDepth ∧
    c.leafLength = c'.leafLength ∧ c.nodeOffset = c'.nodeOffset ∧ c.nodeDepth = c'.nodeDepth ∧
    c.innerLength = c'.innerLength ∧ pad (saltBytes a) c.salt = pad (saltBytes a) c'.salt ∧
    pad (saltBytes a) c.personal = pad (saltBytes a) c'.personal) : paramBlock a c = paramBlock a c' := by
  obtain ⟨h1, h2, h3, h4, h5, h6, h7, h8, h9, h10⟩ := h
  unfold paramBlock
  rw [h1, h2, h3, h4, h5, h6, h7, h8, h9, h10]

/-- C19. Two fresh states have the same chaining value exactly when their parameters agree in everything the parameter block
records: digest length, key length, tree parameters, and zero-padded salt and personalization. -/
theorem C19_domain_separation (plat plat' : Platform) (calls calls' : List Setter) (p p' : Params a)
    (hb : (Params.new a plat).build calls = .ok p) (hb' : (Params.new a plat').build calls' = .ok p')
    (c c' : Config) (hc : c = configOf a calls) (hc' : c' = configOf a calls') :
    p.toState.words = p'.toState.words ↔
    (c.digestLength = c'.digestLength ∧ c.key.length = c'.key.length ∧ c.fanout = c'.fanout ∧ c.maxDepth = c'.maxDepth ∧
      c.leafLength = c'.leafLength ∧ c.nodeOffset = c'.nodeOffset ∧ c.nodeDepth = c'.nodeDepth ∧
      c.innerLength = c'.innerLength ∧ pad (saltBytes a) c.salt = pad (saltBytes a) c'.salt ∧
      pad (saltBytes a) c.personal = pad (saltBytes a) c'.personal) := by
  subst hc hc'
  have rep : ∀ {plat : Platform} {calls : List Setter} {p : Params a}, (Params.new a plat).build calls = .ok p →
      Rep a (configOf a calls) p := by
    intro plat calls p hb
    by_cases h : ∀ x ∈ calls, x.InRange a
    · obtain ⟨q, e, r, _⟩ := rep_build (rep_new a plat) calls h
      rw [hb] at e
      cases e
      exact r
    · rw [build_panics _ calls (by simpa using h) _ (rep_new a plat)] at hb
      cases hb
  have hw : ∀ p : Params a, p.toState.words = p.toWords := by
    intro p
    unfold Params.toState State.withParams
    simp only
    split <;> rfl
  have r := rep hb
  have r' := rep hb'
  rw [hw, hw, toWords_eq r, toWords_eq r']
  constructor
  · intro h
    exact paramBlock_inj r.valid r'.valid (initH_inj r.valid r'.valid h)
  · intro h
    unfold initH
    rw [paramBlock_congr h]

/-- C19 for the tree variants: all leaves and the root start from pairwise different chaining values, and nodes of two
different instances only start from the same one if they agree in position, digest length and key length. -/
theorem C19_tree (plat plat' : Platform) (calls calls' : List PSetter) (p p' : PParams a)
    (hb : (PParams.new a plat).build calls = .ok p) (hb' : (PParams.new a plat').build calls' = .ok p') :
    ∃ leaves root leaves' root', p.toWords = .ok (leaves, root) ∧ p'.toWords = .ok (leaves', root') ∧
      (∀ i : Fin (parDegree a), leaves[i] ≠ root') ∧
      (∀ i j : Fin (parDegree a), leaves[i] = leaves'[j] → i = j ∧
        (pconfigOf a calls).hashLength = (pconfigOf a calls').hashLength ∧
        (pconfigOf a calls).key.length = (pconfigOf a calls').key.length) ∧
      (root = root' → (pconfigOf a calls).hashLength = (pconfigOf a calls').hashLength ∧
        (pconfigOf a calls).key.length = (pconfigOf a calls').key.length) := by
  have rep : ∀ {plat : Platform} {calls : List PSetter} {p : PParams a}, (PParams.new a plat).build calls = .ok p →
      PRep a (pconfigOf a calls).hashLength (pconfigOf a calls).key p := by
    intro plat calls p hb
    by_cases h : ∀ x ∈ calls, x.InRange a
    · obtain ⟨q, e, r, _⟩ := prep_build (c := PConfig.default a) (prep_new a plat) calls h
      rw [hb] at e
      cases e
      exact r
    · have : (PParams.new a plat).build calls = .error .panic := by
        clear hb
        generalize PParams.new a plat = q
        induction calls generalizing q with
        | nil => exact absurd (by simp) h
        | cons x xs ih =>
          rw [PParams.build, List.foldlM_cons]
          by_cases hx : x.InRange a
          · obtain ⟨q', e⟩ := (C16_tree_panics_iff q x).2 hx
            rw [e]
            exact ih (by simpa [hx] using h) q'
          · rw [prun_panics q x hx]; rfl
      rw [this] at hb
      cases hb
  have r := rep hb
  have r' := rep hb'
  have hd : parDegree a ≤ 8 := by cases a <;> decide
  have vl : ∀ {n : Nat} {key : List Byte} {q : PParams a}, PRep a n key q → ∀ i : Fin (parDegree a),
      (leafConfig a n key i).Valid a := by
    intro n key q h i
    have := h.pos; have := h.le; have := h.keyLe
    have hi := i.isLt
    refine ⟨h.pos, h.le, h.keyLe, ?_, ?_, ?_, ?_, ?_, ?_, ?_, ?_⟩ <;>
      simp only [leafConfig, Config.default] <;> first | (cases a <;> decide) | skip
    have : i.val < 256 := by omega
    refine Nat.lt_of_lt_of_le this ?_
    cases a <;> decide
  have vr : ∀ {n : Nat} {key : List Byte} {q : PParams a}, PRep a n key q → (rootConfig a n key).Valid a := by
    intro n key q h
    refine ⟨h.pos, h.le, h.keyLe, ?_, ?_, ?_, ?_, ?_, ?_, ?_, ?_⟩ <;>
      simp only [rootConfig, Config.default] <;> (cases a <;> decide)
  refine ⟨_, _, _, _, PParams.toWords_eq r, PParams.toWords_eq r', ?_, ?_, ?_⟩
  · intro i h
    simp only [Fin.getElem_fin, Vector.getElem_ofFn] at h
    have := (paramBlock_inj (vl r i) (vr r') (initH_inj (vl r i) (vr r') h)).2.2.2.2.2.2.1
    simp [leafConfig, rootConfig] at this
  · intro i j h
    simp only [Fin.getElem_fin, Vector.getElem_ofFn] at h
    have := paramBlock_inj (vl r i) (vl r' j) (initH_inj (vl r i) (vl r' j) h)
    exact ⟨Fin.ext this.2.2.2.2.2.1, this.1, this.2.1⟩
  · intro h
    have := paramBlock_inj (vr r) (vr r') (initH_inj (vr r) (vr r') h)
    exact ⟨this.1, this.2.1⟩

example : ∃ leaves root, (PParams.new .s .AVX2).toWords = .ok (leaves, root) ∧
    (∀ i : Fin (parDegree .s), leaves[i] ≠ root) ∧ (∀ i j : Fin (parDegree .s), leaves[i] = leaves[j] → i = j) := by
  obtain ⟨l, r, l', r', h1, h2, h3, h4, _⟩ := C19_tree (a := .s) .AVX2 .AVX2 [] [] _ _ rfl rfl
  rw [h1] at h2
  cases h2
  exact ⟨l, r, h1, h3, fun i j h => (h4 i j h).1⟩

/-- Salts that differ after padding give different chaining values; salts that do not, do not. -/
example : ∀ p p' : Params .b, (Params.new .b .AVX2).build [.salt [1]] = .ok p →
    (Params.new .b .AVX2).build [.salt [1, 0]] = .ok p' → p.toState.words = p'.toState.words :=
  fun p p' h h' => (C19_domain_separation .AVX2 .AVX2 _ _ p p' h h' _ _ rfl rfl).2 (by decide)
example : ∀ p p' : Params .b, (Params.new .b .AVX2).build [.salt [1]] = .ok p →
    (Params.new .b .AVX2).build [.salt [0, 1]] = .ok p' → p.toState.words ≠ p'.toState.words :=
  fun p p' h h' he => absurd ((C19_domain_separation .AVX2 .AVX2 _ _ p p' h h' _ _ rfl rfl).1 he) (by decide)

end Blake2
