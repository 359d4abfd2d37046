import Verif.Proofs.ManySpec
import Verif.IterSpec
import Verif.Model.Iter
/-! # The scheduler with the client's iterator -/
namespace Blake2
namespace Iter
open Many (Inv SrcLaws PullOk LoopOk pull_inv wide_inv runOne_inv foldl_runOne_inv)

variable {a : Alg} {ι E κ τ σ : Type} [DecidableEq ι]

/-! ## The adapters -/

/-- After `peek`, `Peekable` hands out what the iterator would have. -/
theorem yields_peeked {next : σ → Option κ × σ} {s s' : σ} {xs : List κ} (h : Yields next s xs s') :
    ∃ p : Peekable σ κ, Peekable.peek next { iter := s, peeked := none } = (xs.head?, p) ∧
      Yields (Peekable.next next) p xs { iter := s', peeked := none } := by
  have hrest : ∀ {s s' : σ} {xs : List κ}, Yields next s xs s' →
      Yields (Peekable.next next) { iter := s, peeked := none } xs { iter := s', peeked := none } := by
    intro s s' xs h
    induction h with
    | stop h => exact .stop (by simp only [Peekable.next, h])
    | item h _ ih => exact .item (by simp only [Peekable.next, h]) ih
  cases h with
  | stop h =>
    refine ⟨{ iter := s', peeked := some none }, by simp only [Peekable.peek, h, List.head?_nil], .stop ?_⟩
    simp only [Peekable.next]
  | @item _ s₁ _ x xs h h' =>
    refine ⟨{ iter := s₁, peeked := some (some x) }, by simp only [Peekable.peek, h, List.head?_cons], .item ?_ (hrest h')⟩
    simp only [Peekable.next]

theorem yields_fuse {next : τ → Option κ × τ} {s s' : τ} {xs : List κ} (h : Yields next s xs s') :
    Yields (Fuse.next next) { iter := s, done := false } xs { iter := s', done := true } := by
  induction h with
  | stop h => exact .stop (by simp [Fuse.next, h])
  | item h _ ih => exact .item (by simp [Fuse.next, h]) ih

/-! ## The fused iterator of jobs stands for a queue -/

/-- What is left of the fused iterator is the queue `q`; when it is through, the iterator inside is at `t`. -/
def Left (inner : τ → Option κ × τ) (t : τ) (f : Fuse τ) (q : List κ) : Prop :=
  (f.done = false ∧ Yields inner f.iter q t) ∨ (f.done = true ∧ q = [] ∧ f.iter = t)

variable {src : Source a ι E} {s : Stride} {fin : Bool} {mem0 final : ι → E}
  {inner : τ → Option κ × τ} {place : κ → ι} {visit : κ → E → Res (E × Option (JobRef a ι))} {t : τ}

theorem fusedNext_done {fuel : Nat} {mem : ι → E} {f : Fuse τ} (h : f.done = true) :
    fusedNext (jobNext inner place visit fuel) mem f = .ok (none, mem, f) := by
  simp [fusedNext, h]

theorem fusedNext_none {fuel : Nat} {mem mem' : ι → E} {f : Fuse τ} {it : τ} (h : f.done = false)
    (e : jobNext inner place visit fuel mem f.iter = .ok (none, mem', it)) :
    fusedNext (jobNext inner place visit fuel) mem f = .ok (none, mem', { iter := it, done := true }) := by
  simp [fusedNext, h, e, bind, Except.bind]

theorem fusedNext_some {fuel : Nat} {mem mem' : ι → E} {f : Fuse τ} {it : τ} {j : JobRef a ι} (h : f.done = false)
    (e : jobNext inner place visit fuel mem f.iter = .ok (some j, mem', it)) :
    fusedNext (jobNext inner place visit fuel) mem f = .ok (some j, mem', { iter := it, done := false }) := by
  simp [fusedNext, h, e, bind, Except.bind]

theorem jobNext_inv (L : SrcLaws src) (vec : List (JobRef a ι)) {q : List κ} (hv : ∀ x ∈ q, visit x = src.pull (place x))
    (hpull : ∀ x ∈ q, PullOk src s fin (place x) (mem0 (place x)) (final (place x))) {it : τ} (hy : Yields inner it q t)
    (fuel : Nat) (hf : q.length < fuel) (mem : ι → E) (h : Inv src s fin mem0 final mem (q.map place) vec) :
    (∃ mem', jobNext inner place visit fuel mem it = .ok (none, mem', t) ∧ Inv src s fin mem0 final mem' [] vec) ∨
    (∃ mem' it' q' j, jobNext inner place visit fuel mem it = .ok (some j, mem', it') ∧ Yields inner it' q' t ∧
      Inv src s fin mem0 final mem' (q'.map place) (vec ++ [j]) ∧ (∀ x ∈ q', x ∈ q) ∧ q'.length < q.length) := by
  induction hy generalizing fuel mem with
  | stop hn =>
    cases fuel with
    | zero => simp at hf
    | succ fuel => exact .inl ⟨mem, by simp only [jobNext, hn], h⟩
  | @item it it₁ _ x xs hn hrest ih =>
    cases fuel with
    | zero => simp at hf
    | succ fuel =>
      obtain ⟨e, job, hp, hi⟩ := pull_inv L (hpull x (by simp)) h
      rw [← hv x (by simp)] at hp
      cases job with
      | none =>
        have hstep : jobNext inner place visit (fuel + 1) mem it =
            jobNext inner place visit fuel (store mem (place x) e) it₁ := by
          simp only [jobNext, hn, hp, bind, Except.bind]
        rw [hstep]
        rcases ih (fun y hy => hv y (by simp [hy])) (fun y hy => hpull y (by simp [hy])) fuel (by simp at hf; omega) _ hi with
          h1 | ⟨m, it', q', j, h1, h2, h3, h4, h5⟩
        · exact .inl h1
        · exact .inr ⟨m, it', q', j, h1, h2, h3, fun y hy => by simp [h4 y hy], by simp; omega⟩
      | some j =>
        refine .inr ⟨_, it₁, xs, j, ?_, hrest, hi, fun y hy => by simp [hy], by simp⟩
        simp only [jobNext, hn, hp, bind, Except.bind]

/-- One call of `jobs_iter.next()`. -/
theorem fusedNext_inv (L : SrcLaws src) (vec : List (JobRef a ι)) {q : List κ} (hv : ∀ x ∈ q, visit x = src.pull (place x))
    (hpull : ∀ x ∈ q, PullOk src s fin (place x) (mem0 (place x)) (final (place x))) {f : Fuse τ} (hl : Left inner t f q)
    (fuel : Nat) (hf : q.length < fuel) (mem : ι → E) (h : Inv src s fin mem0 final mem (q.map place) vec) :
    (∃ mem' f', fusedNext (jobNext inner place visit fuel) mem f = .ok (none, mem', f') ∧ f'.iter = t ∧ f'.done = true ∧
      Inv src s fin mem0 final mem' [] vec) ∨
    (∃ mem' f' q' j, fusedNext (jobNext inner place visit fuel) mem f = .ok (some j, mem', f') ∧ Left inner t f' q' ∧
      Inv src s fin mem0 final mem' (q'.map place) (vec ++ [j]) ∧ (∀ x ∈ q', x ∈ q) ∧ q'.length < q.length) := by
  rcases hl with ⟨hd, hy⟩ | ⟨hd, rfl, ht⟩
  · rcases jobNext_inv L vec hv hpull hy fuel hf mem h with ⟨m, h1, h2⟩ | ⟨m, it', q', j, h1, h2, h3, h4, h5⟩
    · exact .inl ⟨m, _, fusedNext_none hd h1, rfl, rfl, h2⟩
    · exact .inr ⟨m, _, q', j, fusedNext_some hd h1, .inl ⟨rfl, h2⟩, h3, h4, h5⟩
  · exact .inl ⟨mem, f, fusedNext_done hd, ht, hd, h⟩

theorem fillJobsVec_inv (L : SrcLaws src) {F : Nat} (T : Nat) (hT : T ≤ maxDegree a) (fuel : Nat)
    {q : List κ} (hv : ∀ x ∈ q, visit x = src.pull (place x))
    (hpull : ∀ x ∈ q, PullOk src s fin (place x) (mem0 (place x)) (final (place x))) {f : Fuse τ} (hl : Left inner t f q)
    (hF : q.length < F) (mem : ι → E) (vec : List (JobRef a ι)) (hfuel : T < vec.length + fuel)
    (h : Inv src s fin mem0 final mem (q.map place) vec) (h0 : 0 < fuel) :
    ∃ mem' f' q' vec', fillJobsVec (fusedNext (jobNext inner place visit F)) T fuel mem f vec = .ok (mem', f', vec') ∧
      Left inner t f' q' ∧ Inv src s fin mem0 final mem' (q'.map place) vec' ∧ (∀ x ∈ q', x ∈ q) ∧
      q'.length + vec'.length ≤ q.length + vec.length ∧ q'.length ≤ q.length := by
  induction fuel generalizing q f mem vec with
  | zero => omega
  | succ fuel ih =>
    rw [fillJobsVec]
    by_cases hlt : vec.length < T
    · rw [if_pos hlt]
      rcases fusedNext_inv L vec hv hpull hl F hF mem h with ⟨m, f', h1, h2, h3, h4⟩ | ⟨m, f', q', j, h1, h2, h3, h4, h5⟩
      · refine ⟨m, f', [], vec, ?_, .inr ⟨h3, rfl, h2⟩, by simpa using h4, by simp, by simp, by simp⟩
        simp only [h1, bind, Except.bind]
      · have hpush : Many.push vec j = .ok (vec ++ [j]) := by rw [Many.push, if_pos (by omega)]
        obtain ⟨m2, f2, q2, v2, e1, e2, e3, e4, e5, e6⟩ := ih (fun y hy => hv y (h4 y hy)) (fun y hy => hpull y (h4 y hy))
          h2 (by omega) m (vec ++ [j]) (by simp; omega) h3 (by omega)
        refine ⟨m2, f2, q2, v2, ?_, e2, e3, fun y hy => h4 y (e4 y hy), ?_, by omega⟩
        · simp only [h1, hpush, bind, Except.bind]; exact e1
        · simp at e5; omega
    · rw [if_neg hlt]
      exact ⟨mem, f, q, vec, rfl, hl, h, by simp, Nat.le_refl _, Nat.le_refl _⟩

theorem levelIter_inv (L : SrcLaws src) {F N : Nat} (hN : N ≤ maxDegree a) {loopN : Vector (Job a) N → Res (Vector (Job a) N)}
    (hloop : LoopOk s fin N loopN) (fuel : Nat)
    {q : List κ} (hv : ∀ x ∈ q, visit x = src.pull (place x))
    (hpull : ∀ x ∈ q, PullOk src s fin (place x) (mem0 (place x)) (final (place x))) {f : Fuse τ} (hl : Left inner t f q)
    (hF : q.length < F) (mem : ι → E) (vec : List (JobRef a ι)) (hfuel : q.length + vec.length < fuel)
    (h : Inv src s fin mem0 final mem (q.map place) vec) :
    ∃ mem' f' q' vec', levelIter (fusedNext (jobNext inner place visit F)) src N loopN fuel mem f vec = .ok (mem', f', vec') ∧
      Left inner t f' q' ∧ Inv src s fin mem0 final mem' (q'.map place) vec' ∧ (∀ x ∈ q', x ∈ q) ∧
      q'.length + vec'.length ≤ q.length + vec.length ∧ q'.length ≤ q.length := by
  induction fuel generalizing q f mem vec with
  | zero => omega
  | succ fuel ih =>
    rw [levelIter]
    obtain ⟨m1, f1, q1, v1, h1, h2, h3, h4, h5, h6⟩ := fillJobsVec_inv L N hN (N + 1) hv hpull hl hF mem vec (by omega) h
      (by omega)
    simp only [h1, bind, Except.bind]
    by_cases hlt : v1.length < N
    · rw [if_pos hlt]
      exact ⟨m1, f1, q1, v1, rfl, h2, h3, h4, h5, h6⟩
    · rw [if_neg hlt]
      obtain ⟨m2, v2, v3, e1, e2, e3, e4⟩ := wide_inv L hloop (q1.map place) m1 v1 (by omega) h3
      simp only [e1, e2]
      obtain ⟨m4, f4, q4, v4, g1, g2, g3, g4, g5, g6⟩ := ih (fun y hy => hv y (h4 y hy)) (fun y hy => hpull y (h4 y hy))
        h2 (by omega) m2 v3 (by omega) e3
      exact ⟨m4, f4, q4, v4, g1, g2, g3, fun y hy => h4 y (g4 y hy), by omega, by omega⟩

theorem level_inv (L : SrcLaws src) {F N degree : Nat} (hN : N ≤ maxDegree a)
    {loopN : Vector (Job a) N → Res (Vector (Job a) N)} (hloop : N ≤ degree → LoopOk s fin N loopN) (fuel : Nat)
    {q : List κ} (hv : ∀ x ∈ q, visit x = src.pull (place x))
    (hpull : ∀ x ∈ q, PullOk src s fin (place x) (mem0 (place x)) (final (place x))) {f : Fuse τ} (hl : Left inner t f q)
    (hF : q.length < F) (mem : ι → E) (vec : List (JobRef a ι)) (hfuel : q.length + vec.length < fuel)
    (h : Inv src s fin mem0 final mem (q.map place) vec) :
    ∃ mem' f' q' vec', level (fusedNext (jobNext inner place visit F)) src degree N loopN fuel mem f vec = .ok (mem', f', vec') ∧
      Left inner t f' q' ∧ Inv src s fin mem0 final mem' (q'.map place) vec' ∧ (∀ x ∈ q', x ∈ q) ∧
      q'.length + vec'.length ≤ q.length + vec.length ∧ q'.length ≤ q.length := by
  unfold level
  by_cases hd : degree ≥ N
  · rw [if_pos hd]
    exact levelIter_inv L hN (hloop hd) fuel hv hpull hl hF mem vec hfuel h
  · rw [if_neg hd]
    exact ⟨mem, f, q, vec, rfl, hl, h, fun _ hi => hi, Nat.le_refl _, Nat.le_refl _⟩

theorem runRest_inv (L : SrcLaws src) {F : Nat} (imp : Platform) (fuel : Nat)
    {q : List κ} (hv : ∀ x ∈ q, visit x = src.pull (place x))
    (hpull : ∀ x ∈ q, PullOk src s fin (place x) (mem0 (place x)) (final (place x))) {f : Fuse τ} (hl : Left inner t f q)
    (hF : q.length < F) (mem : ι → E) (hfuel : q.length < fuel) (h : Inv src s fin mem0 final mem (q.map place) []) :
    ∃ mem' f', runRest (fusedNext (jobNext inner place visit F)) src imp fin s fuel mem f = .ok (mem', f') ∧ f'.iter = t ∧
      Inv src s fin mem0 final mem' [] [] := by
  induction fuel generalizing q f mem with
  | zero => omega
  | succ fuel ih =>
    rw [runRest]
    rcases fusedNext_inv L [] hv hpull hl F hF mem h with ⟨m, f', h1, h2, h3, h4⟩ | ⟨m, f', q', j, h1, h2, h3, h4, h5⟩
    · exact ⟨m, f', by simp only [h1, bind, Except.bind], h2, h4⟩
    · obtain ⟨m1, e1, e2⟩ := runOne_inv imp (q'.map place) m j [] h3
      obtain ⟨m2, f2, g1, g2, g3⟩ := ih (fun y hy => hv y (h4 y hy)) (fun y hy => hpull y (h4 y hy))
        h2 (by omega) m1 (by omega) e2
      exact ⟨m2, f2, by simp only [h1, e1, bind, Except.bind]; exact g1, g2, g3⟩

/-- The batch scheduler over any iterator that ends: every element handed out before the first `None` is processed, and
the iterator is left there. -/
theorem compressMany_eq (L : SrcLaws src) (imp : Platform) (q : List κ) (hv : ∀ x ∈ q, visit x = src.pull (place x))
    (hnd : (q.map place).Nodup) (hpull : ∀ x ∈ q, PullOk src s fin (place x) (mem0 (place x)) (final (place x)))
    (hrest : ∀ i, i ∉ q.map place → mem0 i = final i) {it : τ} (hy : Yields inner it q t) (fuel : Nat) (hf : q.length < fuel) :
    compressMany (jobNext inner place visit fuel) src imp fin s fuel mem0 it = .ok (final, t) := by
  have h0 : Inv src s fin mem0 final mem0 (q.map place) [] :=
    ⟨by simpa using hnd, fun _ _ => rfl, by simp, fun i hi _ => hrest i hi⟩
  have hhi : hiDegree a ≤ maxDegree a := by cases a <;> decide
  have hlo : loDegree a ≤ maxDegree a := by cases a <;> decide
  obtain ⟨m1, f1, q1, v1, h1, h2, h3, h4, h5, h6⟩ := level_inv (F := fuel) L hhi (fun h => compressHi_ok a imp s fin h) fuel
    hv hpull (.inl ⟨rfl, hy⟩ : Left inner t { iter := it, done := false } q) hf mem0 [] (by simpa using hf) h0
  obtain ⟨m2, f2, q2, v2, e1, e2, e3, e4, e5, e6⟩ := level_inv (F := fuel) L hlo (fun h => compressLo_ok a imp s fin h) fuel
    (fun y hy => hv y (h4 y hy)) (fun y hy => hpull y (h4 y hy)) h2 (by omega) m1 v1 (by simp at h5; omega) h3
  obtain ⟨m3, g1, g2⟩ := foldl_runOne_inv imp (q2.map place) m2 v2 e3
  obtain ⟨m4, f4, k1, k2, k3⟩ := runRest_inv (F := fuel) L imp fuel (fun y hy => hv y (h4 y (e4 y hy)))
    (fun y hy => hpull y (h4 y (e4 y hy))) e2 (by omega) m3 (by omega) g2
  unfold compressMany
  simp only [h1, e1, g1, k1, bind, Except.bind, k2]
  have : m4 = final := funext fun i => k3.rest i (by simp) (by simp)
  rw [this]

/-! ## Only the way to the words matters -/

section congr
variable {src src' : Source a ι E} (hg : src.getWords = src'.getWords) (hs : src.setWords = src'.setWords)
include hg hs

theorem writeBack_congr (l : List (JobRef a ι × Job a)) (mem : ι → E) :
    Many.writeBack src mem l = Many.writeBack src' mem l := by
  induction l generalizing mem with
  | nil => rfl
  | cons p l ih => simp only [Many.writeBack, hs, ih]

theorem runWide_congr (N : Nat) (loopN : Vector (Job a) N → Res (Vector (Job a) N)) (mem : ι → E) (vec : List (JobRef a ι)) :
    Many.runWide src N loopN mem vec = Many.runWide src' N loopN mem vec := by
  have hd : Many.deref src = Many.deref src' := by funext m j; simp only [Many.deref, hg]
  unfold Many.runWide
  simp only [hd, writeBack_congr hg hs]

theorem runOne_congr (imp : Platform) (fin : Bool) (s : Stride) :
    Many.runOne src imp fin s = Many.runOne src' imp fin s := by
  funext m j
  simp only [Many.runOne, hg, hs]

variable (next : (ι → E) → τ → Res (Option (JobRef a ι) × (ι → E) × τ))

theorem level_congr (d N : Nat) (loopN : Vector (Job a) N → Res (Vector (Job a) N)) (fuel : Nat) (mem : ι → E) (it : τ)
    (vec : List (JobRef a ι)) : level next src d N loopN fuel mem it vec = level next src' d N loopN fuel mem it vec := by
  have h : ∀ fuel mem it vec, levelIter next src N loopN fuel mem it vec = levelIter next src' N loopN fuel mem it vec := by
    intro fuel
    induction fuel with
    | zero => intro _ _ _; rfl
    | succ fuel ih => intro _ _ _; simp only [levelIter, runWide_congr hg hs, ih]
  simp only [level, h]

theorem runRest_congr (imp : Platform) (fin : Bool) (s : Stride) (fuel : Nat) (mem : ι → E) (it : τ) :
    runRest next src imp fin s fuel mem it = runRest next src' imp fin s fuel mem it := by
  induction fuel generalizing mem it with
  | zero => rfl
  | succ fuel ih => simp only [runRest, runOne_congr hg hs, ih]

theorem compressMany_congr (imp : Platform) (fin : Bool) (s : Stride) (fuel : Nat) (mem : ι → E) (it : τ) :
    compressMany next src imp fin s fuel mem it = compressMany next src' imp fin s fuel mem it := by
  simp only [compressMany, level_congr hg hs, runRest_congr hg hs, runOne_congr hg hs]

end congr

end Iter

variable {a : Alg} {ι σ : Type} [DecidableEq ι]

open Iter in
theorem updateManyI_eq (next : σ → Option (ι × List Byte) × σ) {s s' : σ} {xs : List (ι × List Byte)}
    (hy : Yields next s xs s') (hnd : (xs.map (·.1)).Nodup) (mem : ι → State a) (hm : ∀ x ∈ xs, (mem x.1).Sane)
    (fuel : Nat) (hf : xs.length < fuel) :
    ∃ mem', updateManyI fuel next s mem = .ok (mem', s') ∧ (∀ x ∈ xs, mem' x.1 = State.upd (mem x.1) x.2) ∧
      ∀ i, i ∉ xs.map (·.1) → mem' i = mem i := by
  -- the input paired with a place
  let inp : ι → List Byte := fun i => ((xs.find? fun x => x.1 = i).map (·.2)).getD []
  have hinp : ∀ x ∈ xs, inp x.1 = x.2 := by
    intro x hx
    have hfind : xs.find? (fun y => y.1 = x.1) = some x := by
      clear hy hm hf
      induction xs with
      | nil => simp at hx
      | cons y ys ih =>
        simp only [List.map_cons, List.nodup_cons] at hnd
        rcases List.mem_cons.1 hx with rfl | hx
        · simp
        · have hne : y.1 ≠ x.1 := fun e => hnd.1 (e ▸ List.mem_map.2 ⟨x, hx, rfl⟩)
          rw [List.find?_cons_of_neg (by simpa using hne)]
          exact ih hnd.2 hx
    simp only [inp, hfind, Option.map_some, Option.getD_some]
  obtain ⟨p, hp, hy'⟩ := yields_peeked hy
  unfold updateManyI
  rw [hp]
  cases xs with
  | nil =>
    refine ⟨mem, ?_, by simp, fun _ _ => rfl⟩
    cases hy with
    | stop h =>
      simp only [Peekable.peek, h, List.head?_nil, Prod.mk.injEq, true_and] at hp
      subst hp
      rfl
  | cons x xs =>
    simp only [List.head?_cons]
    let src : Source a ι (State a) := {
      pull := fun i s => updateManyPull i (inp i) s
      getWords := fun s => s.words
      setWords := fun s w => { s with words := w } }
    rw [compressMany_congr (src := { pull := fun _ s => .ok (s, none), getWords := src.getWords, setWords := src.setWords })
      (src' := src) rfl rfl]
    refine ⟨fun i => if i ∈ (x :: xs).map (·.1) then State.upd (mem i) (inp i) else mem i, ?_, ?_, ?_⟩
    · rw [Iter.compressMany_eq (src := src)
        (final := fun i => if i ∈ (x :: xs).map (·.1) then State.upd (mem i) (inp i) else mem i)
        ⟨fun _ _ => rfl, fun _ _ _ => rfl⟩ _ (x :: xs) _ hnd _ _ (yields_fuse hy') fuel hf]
      · rfl
      · intro y hy
        show updateManyPull y.1 y.2 = updateManyPull y.1 (inp y.1)
        rw [hinp y hy]
      · intro y hy
        have hmem : y.1 ∈ (x :: xs).map (·.1) := List.mem_map.2 ⟨y, hy, rfl⟩
        simp only [if_pos hmem]
        exact updateManyPull_ok src y.1 _ _ (hm y hy) rfl (fun _ => rfl) (fun _ _ => rfl)
      · intro i hi
        simp only [if_neg hi]
    · intro y hy
      have hmem : y.1 ∈ (x :: xs).map (·.1) := List.mem_map.2 ⟨y, hy, rfl⟩
      simp only [if_pos hmem, hinp y hy]
    · intro i hi
      simp only [if_neg hi]

open Iter in
theorem hashManyI_eq (next : σ → Option ι × σ) {s s' : σ} {xs : List ι} (hy : Yields next s xs s') (hnd : xs.Nodup)
    (mem : ι → HashManyJob a) (hm : ∀ i ∈ xs, (mem i).count.toNat % a.bb = 0) (fuel : Nat) (hf : xs.length < fuel) :
    hashManyI fuel next s mem = .ok (fun i => if i ∈ xs then (mem i).done else mem i, s') := by
  obtain ⟨p, hp, hy'⟩ := yields_peeked hy
  unfold hashManyI
  rw [hp]
  cases xs with
  | nil =>
    cases hy with
    | stop h =>
      simp only [Peekable.peek, h, List.head?_nil, Prod.mk.injEq, true_and] at hp
      subst hp
      simp
  | cons x xs =>
    simp only [List.head?_cons]
    let src : Source a ι (HashManyJob a) := {
      pull := hashManyPull
      getWords := fun j => j.words
      setWords := fun j w => { j with words := w } }
    rw [compressMany_congr (src := { pull := fun _ s => .ok (s, none), getWords := src.getWords, setWords := src.setWords })
      (src' := src) rfl rfl,
      Iter.compressMany_eq (src := src) (final := fun i => if i ∈ x :: xs then (mem i).done else mem i)
        ⟨fun _ _ => rfl, fun _ _ _ => rfl⟩ _ (x :: xs) (fun _ _ => rfl) (by simpa using hnd) _ _ hy' fuel hf]
    · rfl
    · intro i hi
      simp only [if_pos hi]
      exact hashManyPull_ok src i _ (hm i hi) rfl (fun _ => rfl) (fun _ _ => rfl)
    · intro i hi
      rw [List.map_id'] at hi
      simp only [if_neg hi]

end Blake2
