import Verif.Properties.World
import Verif.Properties.Output
import Verif.Proofs.FastEval
import Verif.Proofs.KernelRfl
/-!
# A hash shows its digest and nothing else: C72
-/
namespace Blake2
open Spec

variable {a : Alg}

/-- Two hashes that are the same, or that a client gets the same digest from. -/
def Alike (h k : Hash a) : Prop := h = k ∨ HashReachable h ∧ HashReachable k ∧ h.asBytes = k.asBytes

theorem Alike.asBytes {h k : Hash a} (r : Alike h k) : h.asBytes = k.asBytes := by
  rcases r with rfl | ⟨_, _, e⟩
  · rfl
  · exact e

theorem Alike.asArray {h k : Hash a} (r : Alike h k) : h.asArray true = k.asArray true := by
  rcases r with rfl | ⟨hr, kr, e⟩
  · rfl
  rw [hr.asBytes, kr.asBytes] at e
  injection e with e
  obtain ⟨h1, _, h2⟩ := hr.ok
  obtain ⟨k1, _, k2⟩ := kr.ok
  have el : h.len.toNat = k.len.toNat := by
    have := congrArg List.length e
    rw [List.length_take, List.length_take] at this
    omega
  unfold Hash.asArray
  rw [el]
  by_cases hc : k.len.toNat = a.outbytes
  · rw [el, hc, List.take_of_length_le (by omega), List.take_of_length_le (by omega)] at e
    rw [e]
  · rw [if_pos (by simp [hc]), if_pos (by simp [hc])]

theorem Alike.refl (h : Hash a) : Alike h h := .inl rfl

/-- Stores that differ only in what the hashes do not show. -/
structure MemAlike (m m' : Mem a) : Prop where
  params : m'.params = m.params
  states : m'.states = m.states
  jobs : m'.jobs = m.jobs
  hashes : Rel Alike m.hashes m'.hashes
  treeParams : m'.treeParams = m.treeParams
  treeStates : m'.treeStates = m.treeStates

/-- The same outcome: the same fault, or the same answer and stores that look the same. -/
def SameOutcome {β : Type} (x y : Res (Mem a × β)) : Prop :=
  match x, y with
  | .ok (m, o), .ok (m', o') => MemAlike m m' ∧ o = o'
  | .error e, .error e' => e = e'
  | _, _ => False

theorem SameOutcome.bind {β γ : Type} {x : Res γ} {f g : γ → Res (Mem a × β)} (h : ∀ v, x = .ok v → SameOutcome (f v) (g v)) :
    SameOutcome (x >>= f) (x >>= g) := by
  cases x with
  | error e => exact rfl
  | ok v => exact h v rfl

theorem SameOutcome.bindHash {β : Type} {hs ks : List (Hash a)} (r : Rel Alike hs ks) (i : Nat) {f g : Hash a → Res (Mem a × β)}
    (h : ∀ u v, Alike u v → SameOutcome (f u) (g v)) :
    SameOutcome (getState hs i >>= f) (getState ks i >>= g) := by
  by_cases hi : i < hs.length
  · obtain ⟨k, e, _, rk⟩ := r.get hi
    have e' : getState hs i = .ok hs[i] := by simp [getState, hi]
    rw [e, e']
    exact h _ _ rk
  · have h1 : getState hs i = .error .panic := by simp [getState, hi]
    have h2 : getState ks i = .error .panic := by
      have := r.1
      simp [getState, show ¬ i < ks.length by omega]
    rw [h1, h2]
    exact rfl

theorem apiCall_alike {m m' : Mem a} (r : MemAlike m m') (dbg : Bool) (c : ApiCall Platform)
    (hc : dbg = false → ∀ i, c ≠ .asArray i) : SameOutcome (c.exec dbg m) (c.exec dbg m') := by
  obtain ⟨ps, ss, js, hs, tp, ts⟩ := m
  obtain ⟨ps', ss', js', hs', tp', ts'⟩ := m'
  obtain ⟨e1, e2, e3, rh, e5, e6⟩ := r
  dsimp only at e1 e2 e3 rh e5 e6
  subst e1 e2 e3 e5 e6
  cases c
  case asArray i =>
    cases dbg with
    | false => exact absurd rfl (hc rfl i)
    | true =>
      refine SameOutcome.bindHash rh i fun u v uv => ?_
      rw [uv.asArray]
      exact SameOutcome.bind fun w _ => ⟨⟨rfl, rfl, rfl, rh, rfl, rfl⟩, rfl⟩
  case asBytes i =>
    refine SameOutcome.bindHash rh i fun u v uv => ?_
    rw [uv.asBytes]
    exact SameOutcome.bind fun w _ => ⟨⟨rfl, rfl, rfl, rh, rfl, rfl⟩, rfl⟩
  case toHex i =>
    refine SameOutcome.bindHash rh i fun u v uv => ?_
    rw [show u.toHex = v.toHex by unfold Hash.toHex; rw [uv.asBytes]]
    exact SameOutcome.bind fun w _ => ⟨⟨rfl, rfl, rfl, rh, rfl, rfl⟩, rfl⟩
  case debugHash i =>
    refine SameOutcome.bindHash rh i fun u v uv => ?_
    rw [show u.debugFmt = v.debugFmt by unfold Hash.debugFmt Hash.toHex; rw [uv.asBytes]]
    exact SameOutcome.bind fun w _ => ⟨⟨rfl, rfl, rfl, rh, rfl, rfl⟩, rfl⟩
  case eqHash i j =>
    refine SameOutcome.bindHash rh i fun u v uv => ?_
    refine SameOutcome.bindHash rh j fun u' v' uv' => ?_
    rw [show u.eqHash u' = v.eqHash v' by unfold Hash.eqHash; rw [uv.asBytes, uv'.asBytes]]
    exact SameOutcome.bind fun w _ => ⟨⟨rfl, rfl, rfl, rh, rfl, rfl⟩, rfl⟩
  case eqBytes i x =>
    refine SameOutcome.bindHash rh i fun u v uv => ?_
    rw [show u.eqSlice x = v.eqSlice x by unfold Hash.eqSlice; rw [uv.asBytes]]
    exact SameOutcome.bind fun w _ => ⟨⟨rfl, rfl, rfl, rh, rfl, rfl⟩, rfl⟩
  all_goals
    repeat' (first
      | exact ⟨⟨rfl, rfl, rfl, rh, rfl, rfl⟩, rfl⟩
      | exact ⟨⟨rfl, rfl, rfl, rh.append (Alike.refl _), rfl, rfl⟩, rfl⟩
      | (refine SameOutcome.bind fun _ _ => ?_))

theorem run_alike {m m' : Mem a} (r : MemAlike m m') (dbg : Bool) (prog : List (ApiCall Platform))
    (hp : dbg = false → ∀ i, .asArray i ∉ prog) : SameOutcome (m.run dbg prog) (m'.run dbg prog) := by
  induction prog generalizing m m' with
  | nil => exact ⟨r, rfl⟩
  | cons c cs ih =>
    have h := apiCall_alike r dbg c fun hd i e => hp hd i (by rw [e]; exact List.mem_cons_self)
    show SameOutcome (c.exec dbg m >>= _) (c.exec dbg m' >>= _)
    revert h
    generalize c.exec dbg m = x
    generalize c.exec dbg m' = y
    intro h
    match x, y, h with
    | .error e, .error _, rfl => exact rfl
    | .ok (m1, o), .ok (m2, _), ⟨rm, rfl⟩ =>
      have h2 := ih rm fun hd i hi => hp hd i (List.mem_cons_of_mem _ hi)
      show SameOutcome (m1.run dbg cs >>= _) (m2.run dbg cs >>= _)
      revert h2
      generalize m1.run dbg cs = x
      generalize m2.run dbg cs = y
      intro h2
      match x, y, h2 with
      | .error e, .error _, rfl => exact rfl
      | .ok (m1, o), .ok (m2, _), ⟨rm, rfl⟩ => exact ⟨rm, rfl⟩

/-- C72. No program tells two hashes with the same digest apart. Put either of them in the same place among the values a client
holds: whatever calls follow, with whatever other values, the answers are the same, and so is the panic if there is one. In a
release build the program must not call `as_array`. -/
theorem C72_programs (m : Mem a) (before after : List (Hash a)) (h k : Hash a) (hr : HashReachable h) (kr : HashReachable k)
    (same : h.asBytes = k.asBytes) (dbg : Bool) (prog : List (ApiCall Platform))
    (hp : dbg = false → ∀ i, .asArray i ∉ prog) :
    (Mem.run dbg { m with hashes := before ++ h :: after } prog).map Prod.snd =
      (Mem.run dbg { m with hashes := before ++ k :: after } prog).map Prod.snd := by
  have rh : Rel Alike (before ++ h :: after) (before ++ k :: after) := by
    refine ⟨by simp, fun i h1 h2 => ?_⟩
    by_cases hi : i < before.length
    · rw [List.getElem_append_left hi, List.getElem_append_left hi]; exact .inl rfl
    · rw [List.getElem_append_right (by omega), List.getElem_append_right (by omega)]
      rcases Nat.eq_zero_or_pos (i - before.length) with hj | hj
      · simp only [hj, List.getElem_cons_zero]
        exact .inr ⟨hr, kr, same⟩
      · rw [List.getElem_cons, List.getElem_cons, dif_neg (by omega), dif_neg (by omega)]
        exact .inl rfl
  have := run_alike (m := { m with hashes := before ++ h :: after }) (m' := { m with hashes := before ++ k :: after })
    ⟨rfl, rfl, rfl, rh, rfl, rfl⟩ dbg prog hp
  revert this
  generalize Mem.run dbg { m with hashes := before ++ h :: after } prog = x
  generalize Mem.run dbg { m with hashes := before ++ k :: after } prog = y
  intro h
  match x, y, h with
  | .error e, .error _, rfl => exact rfl
  | .ok (m1, o), .ok (m2, _), ⟨_, rfl⟩ => exact rfl

/-- C72. What `as_array` shows of a short hash in a release build: all the bytes of the last chaining value, that is, the output
before it is cut to the configured length. -/
theorem C72_release (plat : Platform) (calls : List Setter) (p : Params a) (hb : (Params.new a plat).build calls = .ok p)
    (x : List Byte) :
    ∃ h, p.hash x = .ok h ∧ h.asBytes = .ok (Spec.hash a (configOf a calls) x) ∧
      h.asArray false = .ok (hashFull a (configOf a calls) x) := by
  obtain ⟨r, _⟩ := built_rep hb
  exact ⟨_, hash_eq r x, asBytes_full r x, rfl⟩

/-- C72 for the tree variants: the root's output before it is cut. -/
theorem C72_tree_release (plat : Platform) (calls : List PSetter) (p : PParams a) (hb : (PParams.new a plat).build calls = .ok p)
    (x : List Byte) :
    ∃ h, p.hash x = .ok h ∧
      h.asBytes = .ok (Spec.hashP a (pconfigOf a calls).hashLength (pconfigOf a calls).key x) ∧
      h.asArray false = .ok (hashPFull a (pconfigOf a calls).hashLength (pconfigOf a calls).key x) := by
  obtain ⟨r, _⟩ := pbuilt_rep hb
  exact ⟨_, PParams.hash_eq r x, r.asBytes x, rfl⟩

/-- The parameters for digests of one byte, and two messages with the same digest. -/
def short : Alg → List Byte × List Byte
  | .b => ([5], [24])
  | .s => ([7], [19])

/-- The first two bytes before they are cut to one. -/
theorem short_left (a : Alg) : (hashFull a (configOf a [.hashLength 1]) (short a).1).take 2 =
    match a with | .b => [207, 237] | .s => [178, 193] := by
  rw [Fast.hashFull_eq]
  cases a <;> kernel_rfl

theorem short_right (a : Alg) : (hashFull a (configOf a [.hashLength 1]) (short a).2).take 2 =
    match a with | .b => [207, 115] | .s => [178, 103] := by
  rw [Fast.hashFull_eq]
  cases a <;> kernel_rfl

theorem short_same (a : Alg) : Spec.hash a (configOf a [.hashLength 1]) (short a).1 = Spec.hash a (configOf a [.hashLength 1]) (short a).2 := by
  have h := congrArg (List.take 1) (short_left a)
  have k := congrArg (List.take 1) (short_right a)
  rw [List.take_take] at h k
  unfold Spec.hash
  rw [show (configOf a [.hashLength 1]).digestLength = min 1 2 by cases a <;> rfl, h, k]
  cases a <;> rfl

theorem short_differ (a : Alg) :
    hashFull a (configOf a [.hashLength 1]) (short a).1 ≠ hashFull a (configOf a [.hashLength 1]) (short a).2 := by
  intro h
  have := congrArg (List.take 2) h
  rw [short_left, short_right] at this
  cases a <;> exact absurd this (by decide)

/-- C72. The condition on `as_array` is needed: two inputs whose digests of one byte are the same and whose arrays are not. -/
theorem C72_release_tells (a : Alg) (plat : Platform) :
    ∃ (p : Params a) (h k : Hash a) (x y : List Byte), (Params.new a plat).build [.hashLength 1] = .ok p ∧
      p.hash x = .ok h ∧ p.hash y = .ok k ∧ h.asBytes = k.asBytes ∧ h.asArray false ≠ k.asArray false := by
  obtain ⟨p, e⟩ := C03_nonvacuous (a := a) plat [.hashLength 1] (by cases a <;> decide)
  obtain ⟨h, h1, h2, h3⟩ := C72_release plat _ p e (short a).1
  obtain ⟨k, k1, k2, k3⟩ := C72_release plat _ p e (short a).2
  refine ⟨p, h, k, _, _, e, h1, k1, by rw [h2, k2, short_same], ?_⟩
  rw [h3, k3]
  intro he
  injection he with he
  exact short_differ a he

/-- A client of a release build that hashed one message or the other, and cannot tell which. -/
example : ∃ h k : Hash .b, HashReachable h ∧ HashReachable k ∧ h.asBytes = k.asBytes ∧ h ≠ k ∧
    (Mem.run false ({ hashes := [h] } : Mem .b) [.debugHash 0, .toHex 0, .eqHash 0 0]).map Prod.snd =
      (Mem.run false ({ hashes := [k] } : Mem .b) [.debugHash 0, .toHex 0, .eqHash 0 0]).map Prod.snd := by
  obtain ⟨p, h, k, x, y, e, e1, e2, e3, e4⟩ := C72_release_tells .b .AVX2
  have hr : HashReachable h := .params p x _ ⟨_, _, e⟩ e1
  have kr : HashReachable k := .params p y _ ⟨_, _, e⟩ e2
  exact ⟨h, k, hr, kr, e3, fun he => e4 (by rw [he]), C72_programs {} [] [] h k hr kr e3 false _ (fun _ i => by simp)⟩

end Blake2
