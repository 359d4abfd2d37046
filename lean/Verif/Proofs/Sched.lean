import Verif.Basic
/-!
# The order in which the batch scheduler makes its calls, for any kind of call

The scheduler of `many.rs` looks at nothing but how many calls each job still has to make. Here it is a function on lists
of calls of any type; `Verif/Proofs/TraceMany.lean` shows that the log of `compress_many` is its output.
-/
namespace Blake2.Sched

variable {ι C D : Type}

/-- Visiting an element: the calls made at once, and those of the job it gives rise to, if any. -/
abbrev Pull (ι C : Type) := ι → List C × Option (List C)

/-- One lane, one call at a time. -/
def solo (i : ι) (cs : List C) : List (List (ι × C)) := cs.map fun c => [(i, c)]

/-- The first `n` calls of every lane, in lockstep. -/
def lockstep : Nat → List (ι × List C) → List (List (ι × C))
  | 0, _ => []
  | n + 1, v => (v.filterMap fun p => p.2.head?.map fun c => (p.1, c)) :: lockstep n (v.map fun p => (p.1, p.2.tail))

/-- The length of the shortest list. -/
def shortest (v : List (ι × List C)) : Nat := ((v.map fun p => p.2.length).min?).getD 0

def fill (pull : Pull ι C) (T : Nat) : List ι → List (ι × List C) → List (List (ι × C)) × List ι × List (ι × List C)
  | [], v => ([], [], v)
  | i :: q, v =>
    if v.length < T then
      let r := fill pull T q (match (pull i).2 with
        | none => v
        | some cs => v ++ [(i, cs)])
      (solo i (pull i).1 ++ r.1, r.2)
    else ([], i :: q, v)

def wide (N : Nat) (v : List (ι × List C)) : List (List (ι × C)) × List (ι × List C) :=
  (lockstep (shortest (v.take N)) (v.take N),
   ((v.take N).map fun p => (p.1, p.2.drop (shortest (v.take N)))).filter (fun p => !p.2.isEmpty) ++ v.drop N)

def levelIter (pull : Pull ι C) (N : Nat) :
    Nat → List ι → List (ι × List C) → List (List (ι × C)) × List ι × List (ι × List C)
  | 0, q, v => ([], q, v)
  | fuel + 1, q, v =>
    let r := fill pull N q v
    if r.2.2.length < N then r
    else
      let w := wide N r.2.2
      let r' := levelIter pull N fuel r.2.1 w.2
      (r.1 ++ (w.1 ++ r'.1), r'.2)

def level (pull : Pull ι C) (degree N : Nat) (q : List ι) (v : List (ι × List C)) :
    List (List (ι × C)) × List ι × List (ι × List C) :=
  if degree ≥ N then levelIter pull N (q.length + v.length + 1) q v else ([], q, v)

def runQueue (pull : Pull ι C) (q : List ι) : List (List (ι × C)) :=
  q.flatMap fun i => solo i (pull i).1 ++ solo i ((pull i).2.getD [])

def runVec (v : List (ι × List C)) : List (List (ι × C)) := v.flatMap fun p => solo p.1 p.2

/-- The whole schedule. -/
def run (pull : Pull ι C) (degree hi lo : Nat) (q : List ι) : List (List (ι × C)) :=
  let r := level pull degree hi q []
  let r' := level pull degree lo r.2.1 r.2.2
  r.1 ++ (r'.1 ++ (runVec r'.2.2 ++ runQueue pull r'.2.1))

/-! ## The schedule does not look at the calls -/

section Map
variable (f : C → D)

def mapLog (l : List (List (ι × C))) : List (List (ι × D)) := l.map fun p => p.map fun c => (c.1, f c.2)
def mapVec (v : List (ι × List C)) : List (ι × List D) := v.map fun p => (p.1, p.2.map f)
def mapPull (pull : Pull ι C) : Pull ι D := fun i => ((pull i).1.map f, (pull i).2.map (List.map f))

theorem mapLog_append (l l' : List (List (ι × C))) : mapLog f (l ++ l') = mapLog f l ++ mapLog f l' := by simp [mapLog]

theorem solo_map (i : ι) (cs : List C) : solo i (cs.map f) = mapLog f (solo i cs) := by
  simp [solo, mapLog, List.map_map, Function.comp_def]

theorem lockstep_map (n : Nat) (v : List (ι × List C)) : lockstep n (mapVec f v) = mapLog f (lockstep n v) := by
  induction n generalizing v with
  | zero => rfl
  | succ n ih =>
    simp only [lockstep, mapLog, List.map_cons]
    congr 1
    · simp only [mapVec, List.filterMap_map, List.map_filterMap, Function.comp_def]
      congr 1; funext p
      cases p.2 <;> rfl
    · have : (mapVec f v).map (fun p => (p.1, p.2.tail)) = mapVec f (v.map fun p => (p.1, p.2.tail)) := by
        simp only [mapVec, List.map_map]
        apply List.map_congr_left
        intro p _
        simp
      rw [this, ih]; rfl

theorem mapVec_length (v : List (ι × List C)) : (mapVec f v).length = v.length := by simp [mapVec]
theorem mapVec_take (N : Nat) (v : List (ι × List C)) : (mapVec f v).take N = mapVec f (v.take N) := by
  simp [mapVec, List.map_take]
theorem mapVec_drop (N : Nat) (v : List (ι × List C)) : (mapVec f v).drop N = mapVec f (v.drop N) := by
  simp [mapVec, List.map_drop]

theorem shortest_map (v : List (ι × List C)) : shortest (mapVec f v) = shortest v := by
  simp [shortest, mapVec, Function.comp_def]

theorem fill_map (pull : Pull ι C) (T : Nat) (q : List ι) (v : List (ι × List C)) :
    fill (mapPull f pull) T q (mapVec f v) =
      (mapLog f (fill pull T q v).1, (fill pull T q v).2.1, mapVec f (fill pull T q v).2.2) := by
  induction q generalizing v with
  | nil => rfl
  | cons i q ih =>
    simp only [fill, mapVec_length]
    split
    · have : (match (mapPull f pull i).2 with
        | none => mapVec f v
        | some cs => mapVec f v ++ [(i, cs)]) = mapVec f (match (pull i).2 with
        | none => v
        | some cs => v ++ [(i, cs)]) := by
        unfold mapPull
        cases (pull i).2 with
        | none => rfl
        | some cs => simp [mapVec]
      rw [this, ih]
      simp only [mapLog_append, mapPull, solo_map]
    · rfl

theorem wide_map (N : Nat) (v : List (ι × List C)) :
    wide N (mapVec f v) = (mapLog f (wide N v).1, mapVec f (wide N v).2) := by
  simp only [wide, mapVec_take, mapVec_drop, shortest_map, lockstep_map]
  congr 1
  simp only [mapVec, List.map_append, List.map_map, List.filter_map]
  congr 1
  rw [List.filter_congr (q := (fun p => !p.2.isEmpty) ∘ fun p : ι × List C => (p.1, p.2.drop (shortest (v.take N))))]
  · apply List.map_congr_left
    intro p _
    simp
  · intro p _
    simp only [Function.comp]
    rw [← List.map_drop]
    cases p.2.drop (shortest (v.take N)) <;> rfl

theorem levelIter_map (pull : Pull ι C) (N fuel : Nat) (q : List ι) (v : List (ι × List C)) :
    levelIter (mapPull f pull) N fuel q (mapVec f v) =
      (mapLog f (levelIter pull N fuel q v).1, (levelIter pull N fuel q v).2.1, mapVec f (levelIter pull N fuel q v).2.2) := by
  induction fuel generalizing q v with
  | zero => rfl
  | succ fuel ih =>
    simp only [levelIter, fill_map, mapVec_length, wide_map]
    split
    · rfl
    · simp only [ih, mapLog_append]

theorem level_map (pull : Pull ι C) (degree N : Nat) (q : List ι) (v : List (ι × List C)) :
    level (mapPull f pull) degree N q (mapVec f v) =
      (mapLog f (level pull degree N q v).1, (level pull degree N q v).2.1, mapVec f (level pull degree N q v).2.2) := by
  unfold level
  split
  · rw [mapVec_length, levelIter_map]
  · rfl

theorem runQueue_map (pull : Pull ι C) (q : List ι) : runQueue (mapPull f pull) q = mapLog f (runQueue pull q) := by
  induction q with
  | nil => rfl
  | cons i q ih =>
    simp only [runQueue, List.flatMap_cons] at ih ⊢
    rw [ih]
    simp only [mapLog_append, mapPull, solo_map]
    congr 2
    cases (pull i).2 with
    | none => rfl
    | some cs => exact solo_map f i cs

theorem runVec_map (v : List (ι × List C)) : runVec (mapVec f v) = mapLog f (runVec v) := by
  induction v with
  | nil => rfl
  | cons p v ih =>
    simp only [runVec, mapVec, List.map_cons, List.flatMap_cons] at ih ⊢
    rw [ih, mapLog_append, solo_map]

/-- **The schedule is natural in the calls.** -/
theorem run_map (pull : Pull ι C) (degree hi lo : Nat) (q : List ι) :
    run (mapPull f pull) degree hi lo q = mapLog f (run pull degree hi lo q) := by
  have h0 : ([] : List (ι × List D)) = mapVec f [] := rfl
  simp only [run, h0, level_map, mapLog_append, runVec_map, runQueue_map]

end Map

/-! ## Every job makes all its calls, in order -/

variable [DecidableEq ι]

/-- The calls of `i` in a log. -/
def mine (i : ι) (log : List (List (ι × C))) : List C := log.flatten.filterMap fun p => if p.1 = i then some p.2 else none

theorem mine_append (i : ι) (l l' : List (List (ι × C))) : mine i (l ++ l') = mine i l ++ mine i l' := by simp [mine]
theorem mine_nil (i : ι) : mine i ([] : List (List (ι × C))) = [] := rfl
theorem mine_cons (i : ι) (p : List (ι × C)) (l : List (List (ι × C))) : mine i (p :: l) = mine i [p] ++ mine i l :=
  mine_append i [p] l

theorem mine_solo_same (i : ι) (cs : List C) : mine i (solo i cs) = cs := by
  induction cs with
  | nil => rfl
  | cons c cs ih =>
    have : solo i (c :: cs) = [(i, c)] :: solo i cs := rfl
    rw [this, mine_cons, ih]; simp [mine]

theorem mine_solo_ne {i j : ι} (h : j ≠ i) (cs : List C) : mine i (solo j cs) = [] := by
  induction cs with
  | nil => rfl
  | cons c cs ih =>
    have : solo j (c :: cs) = [(j, c)] :: solo j cs := rfl
    rw [this, mine_cons, ih]; simp [mine, h]

/-- The calls `i` still has to make, by the vector. -/
def look (i : ι) : List (ι × List C) → List C
  | [] => []
  | p :: v => if p.1 = i then p.2 else look i v

theorem look_not_mem {i : ι} {v : List (ι × List C)} (h : i ∉ v.map (·.1)) : look i v = [] := by
  induction v with
  | nil => rfl
  | cons p v ih =>
    simp only [List.map_cons, List.mem_cons, not_or] at h
    rw [look, if_neg (fun e => h.1 e.symm), ih h.2]

theorem look_append {i : ι} {v w : List (ι × List C)} (h : i ∉ w.map (·.1)) : look i (v ++ w) = look i v := by
  induction v with
  | nil => exact look_not_mem h
  | cons p v ih => simp only [List.cons_append, look, ih]

theorem look_append' {i : ι} {v w : List (ι × List C)} (h : i ∉ v.map (·.1)) : look i (v ++ w) = look i w := by
  induction v with
  | nil => rfl
  | cons p v ih =>
    simp only [List.map_cons, List.mem_cons, not_or] at h
    rw [List.cons_append, look, if_neg (fun e => h.1 e.symm), ih h.2]

theorem look_map (i : ι) (g : List C → List C) (hg : g [] = []) (v : List (ι × List C)) :
    look i (v.map fun p => (p.1, g p.2)) = g (look i v) := by
  induction v with
  | nil => exact hg.symm
  | cons p v ih =>
    simp only [List.map_cons, look, ih]
    split <;> rfl

theorem look_filter {i : ι} {v : List (ι × List C)} (h : (v.map (·.1)).Nodup) :
    look i (v.filter fun p => !p.2.isEmpty) = look i v := by
  induction v with
  | nil => rfl
  | cons p v ih =>
    simp only [List.map_cons, List.nodup_cons] at h
    rw [List.filter_cons]
    by_cases he : p.2 = []
    · simp only [he, List.isEmpty_nil, Bool.not_true, Bool.false_eq_true, if_false, look]
      rw [ih h.2]
      split
      · rename_i hi; subst hi; exact look_not_mem h.1
      · rfl
    · have : (!p.2.isEmpty) = true := by simpa using he
      simp only [this, if_true, look, ih h.2]

theorem mine_head {i : ι} {v : List (ι × List C)} (h : (v.map (·.1)).Nodup) :
    mine i [v.filterMap fun p => p.2.head?.map fun c => (p.1, c)] = (look i v).take 1 := by
  induction v with
  | nil => rfl
  | cons p v ih =>
    simp only [List.map_cons, List.nodup_cons] at h
    have hv := ih h.2
    obtain ⟨j, cs⟩ := p
    rw [look]
    by_cases hj : j = i
    · subst hj
      rw [look_not_mem h.1] at hv
      rw [if_pos rfl]
      cases cs with
      | nil => simpa [mine] using hv
      | cons c cs => simpa [mine] using hv
    · rw [if_neg hj, ← hv]
      cases cs with
      | nil => simp [mine, List.filterMap_cons]
      | cons c cs => simp [mine, hj]

theorem mine_lockstep {i : ι} (n : Nat) {v : List (ι × List C)} (h : (v.map (·.1)).Nodup) :
    mine i (lockstep n v) = (look i v).take n := by
  induction n generalizing v with
  | zero => simp [lockstep, mine]
  | succ n ih =>
    rw [lockstep, mine_cons, mine_head h, ih (by rw [List.map_map]; exact h), look_map i List.tail rfl]
    cases look i v <;> simp

/-- What `i` still has to do. -/
def todo (pull : Pull ι C) (i : ι) (q : List ι) (v : List (ι × List C)) : List C :=
  (if i ∈ q then (pull i).1 ++ (pull i).2.getD [] else []) ++ look i v

structure Ok (q : List ι) (v : List (ι × List C)) : Prop where
  nodup : (q ++ v.map (·.1)).Nodup

theorem fill_mine (pull : Pull ι C) (T : Nat) (q : List ι) (v : List (ι × List C)) (h : Ok q v) :
    Ok (fill pull T q v).2.1 (fill pull T q v).2.2 ∧
    ∀ i, mine i (fill pull T q v).1 ++ todo pull i (fill pull T q v).2.1 (fill pull T q v).2.2 = todo pull i q v := by
  induction q generalizing v with
  | nil => exact ⟨h, fun i => rfl⟩
  | cons j q ih =>
    rw [fill]
    split
    · have hnd := h.nodup
      simp only [List.cons_append, List.nodup_cons, List.mem_append, not_or] at hnd
      obtain ⟨⟨hjq, hjv⟩, hnd'⟩ := hnd
      have hok : Ok q (match (pull j).2 with
          | none => v
          | some cs => v ++ [(j, cs)]) := by
        constructor
        cases (pull j).2 with
        | none => exact hnd'
        | some cs =>
          simp only [List.map_append, List.map_cons, List.map_nil, ← List.append_assoc]
          rw [List.nodup_append]
          refine ⟨hnd', by simp, fun x hx y hy => ?_⟩
          simp only [List.mem_cons, List.not_mem_nil, or_false] at hy
          subst hy
          rintro rfl
          rcases List.mem_append.1 hx with h | h
          · exact hjq h
          · exact hjv h
      obtain ⟨h1, h2⟩ := ih _ hok
      refine ⟨h1, fun i => ?_⟩
      simp only
      rw [mine_append, List.append_assoc, h2 i]
      unfold todo
      by_cases hi : i = j
      · subst hi
        rw [if_neg hjq, if_pos (by simp), mine_solo_same, look_not_mem hjv]
        cases (pull i).2 with
        | none => simp [look_not_mem hjv]
        | some cs => simp [look_append' hjv, look]
      · rw [mine_solo_ne (fun e => hi e.symm)]
        simp only [List.mem_cons, hi, false_or, List.nil_append]
        congr 1
        cases (pull j).2 with
        | none => rfl
        | some cs => exact look_append (by simpa using hi)
    · exact ⟨h, fun i => rfl⟩

theorem wide_mine (pull : Pull ι C) (N : Nat) (q : List ι) (v : List (ι × List C)) (h : Ok q v) :
    Ok q (wide N v).2 ∧ ∀ i, mine i (wide N v).1 ++ todo pull i q (wide N v).2 = todo pull i q v := by
  have hnd := h.nodup
  rw [List.nodup_append] at hnd
  obtain ⟨hq, hv, hd⟩ := hnd
  have hsplit : v.map (·.1) = (v.take N).map (·.1) ++ (v.drop N).map (·.1) := by
    rw [← List.map_append, List.take_append_drop]
  rw [hsplit, List.nodup_append] at hv
  obtain ⟨hA, hB, hAB⟩ := hv
  have hsub : ((wide N v).2.map (·.1)).Sublist (v.map (·.1)) := by
    simp only [wide, List.map_append, hsplit]
    refine List.Sublist.append ?_ (List.Sublist.refl _)
    have := (List.filter_sublist (l := (v.take N).map fun p => (p.1, p.2.drop (shortest (v.take N))))
      (p := fun p => !p.2.isEmpty)).map (·.1)
    rw [List.map_map] at this
    exact this
  refine ⟨⟨?_⟩, fun i => ?_⟩
  · rw [List.nodup_append]
    exact ⟨hq, hsub.nodup (by rw [hsplit, List.nodup_append]; exact ⟨hA, hB, hAB⟩),
      fun x hx y hy => hd x hx y (hsub.mem hy)⟩
  · have hl : look i v = look i (v.take N ++ v.drop N) := by rw [List.take_append_drop]
    have hAn : ((v.take N).map fun p => (p.1, p.2.drop (shortest (v.take N)))).map (·.1) = (v.take N).map (·.1) := by
      rw [List.map_map]; rfl
    unfold todo
    by_cases hi : i ∈ v.map (·.1)
    · have hiq : i ∉ q := fun hm => hd i hm i hi rfl
      rw [if_neg hiq, List.nil_append, List.nil_append, hl]
      rw [hsplit, List.mem_append] at hi
      simp only [wide]
      rw [mine_lockstep _ hA]
      rcases hi with hi | hi
      · have hiB : i ∉ (v.drop N).map (·.1) := fun hm => hAB i hi i hm rfl
        rw [look_append hiB, look_append hiB, look_filter (by rw [hAn]; exact hA), look_map i (List.drop _) (by simp),
          List.take_append_drop]
      · have hiA : i ∉ (v.take N).map (·.1) := fun hm => hAB i hm i hi rfl
        rw [look_append' hiA, look_append', look_not_mem hiA]
        · simp
        · intro hm
          apply hiA
          rw [← hAn]
          exact (List.filter_sublist.map _).mem hm
    · have h1 : look i v = [] := look_not_mem hi
      have h2 : look i (wide N v).2 = [] := look_not_mem fun hm => hi (hsub.mem hm)
      rw [h1, h2]
      simp only [wide]
      rw [mine_lockstep _ hA, look_not_mem (fun hm => hi (by rw [hsplit, List.mem_append]; exact .inl hm))]
      simp

theorem levelIter_mine (pull : Pull ι C) (N fuel : Nat) (q : List ι) (v : List (ι × List C)) (h : Ok q v) :
    Ok (levelIter pull N fuel q v).2.1 (levelIter pull N fuel q v).2.2 ∧
    ∀ i, mine i (levelIter pull N fuel q v).1 ++ todo pull i (levelIter pull N fuel q v).2.1 (levelIter pull N fuel q v).2.2 =
      todo pull i q v := by
  induction fuel generalizing q v with
  | zero => exact ⟨h, fun i => rfl⟩
  | succ fuel ih =>
    simp only [levelIter]
    obtain ⟨h1, h2⟩ := fill_mine pull N q v h
    split
    · exact ⟨h1, h2⟩
    · obtain ⟨h3, h4⟩ := wide_mine pull N _ _ h1
      obtain ⟨h5, h6⟩ := ih _ _ h3
      refine ⟨h5, fun i => ?_⟩
      simp only
      rw [mine_append, mine_append, List.append_assoc, List.append_assoc, h6 i, h4 i, h2 i]

theorem level_mine (pull : Pull ι C) (degree N : Nat) (q : List ι) (v : List (ι × List C)) (h : Ok q v) :
    Ok (level pull degree N q v).2.1 (level pull degree N q v).2.2 ∧
    ∀ i, mine i (level pull degree N q v).1 ++ todo pull i (level pull degree N q v).2.1 (level pull degree N q v).2.2 =
      todo pull i q v := by
  unfold level
  split
  · exact levelIter_mine pull N _ q v h
  · exact ⟨h, fun i => rfl⟩

theorem runVec_mine (i : ι) (v : List (ι × List C)) (h : (v.map (·.1)).Nodup) : mine i (runVec v) = look i v := by
  induction v with
  | nil => rfl
  | cons p v ih =>
    simp only [List.map_cons, List.nodup_cons] at h
    have : runVec (p :: v) = solo p.1 p.2 ++ runVec v := rfl
    rw [this, mine_append, ih h.2, look]
    split
    · rename_i hi; subst hi; rw [mine_solo_same, look_not_mem h.1, List.append_nil]
    · rename_i hi; rw [mine_solo_ne hi]; rfl

theorem runQueue_mine (pull : Pull ι C) (i : ι) (q : List ι) (h : q.Nodup) :
    mine i (runQueue pull q) = if i ∈ q then (pull i).1 ++ (pull i).2.getD [] else [] := by
  induction q with
  | nil => rfl
  | cons j q ih =>
    simp only [List.nodup_cons] at h
    have : runQueue pull (j :: q) = (solo j (pull j).1 ++ solo j ((pull j).2.getD [])) ++ runQueue pull q := rfl
    rw [this, mine_append, mine_append, ih h.2]
    by_cases hi : i = j
    · subst hi
      rw [mine_solo_same, mine_solo_same, if_neg h.1, if_pos (by simp), List.append_nil]
    · rw [mine_solo_ne (fun e => hi e.symm), mine_solo_ne (fun e => hi e.symm)]
      simp [hi]

/-- **Every element makes exactly its own calls, in order.** -/
theorem run_mine (pull : Pull ι C) (degree hi lo : Nat) (q : List ι) (h : q.Nodup) (i : ι) :
    mine i (run pull degree hi lo q) = if i ∈ q then (pull i).1 ++ (pull i).2.getD [] else [] := by
  have h0 : Ok q ([] : List (ι × List C)) := ⟨by simpa using h⟩
  obtain ⟨h1, h2⟩ := level_mine pull degree hi q [] h0
  obtain ⟨h3, h4⟩ := level_mine pull degree lo _ _ h1
  have hnd := h3.nodup
  rw [List.nodup_append] at hnd
  have e1 := h2 i
  have e2 := h4 i
  simp only [run]
  rw [mine_append, mine_append, mine_append, runVec_mine i _ hnd.2.1, runQueue_mine pull i _ hnd.1]
  have hswap : look i (level pull degree lo (level pull degree hi q []).2.1 (level pull degree hi q []).2.2).2.2 ++
      (if i ∈ (level pull degree lo (level pull degree hi q []).2.1 (level pull degree hi q []).2.2).2.1 then
        (pull i).1 ++ (pull i).2.getD [] else []) =
      todo pull i (level pull degree lo (level pull degree hi q []).2.1 (level pull degree hi q []).2.2).2.1
        (level pull degree lo (level pull degree hi q []).2.1 (level pull degree hi q []).2.2).2.2 := by
    unfold todo
    split
    · rename_i hm
      rw [look_not_mem (fun hv => hnd.2.2 i hm i hv rfl)]
      simp
    · simp
  rw [hswap, e2, e1]
  simp [todo, look]

/-! ## The lanes of a pass -/

/-- A log whose passes have distinct owners and one of the given widths. -/
def Shaped (W : List Nat) (log : List (List (ι × C))) : Prop := ∀ p ∈ log, (p.map (·.1)).Nodup ∧ p.length ∈ W

omit [DecidableEq ι] in
theorem Shaped.append {W : List Nat} {l l' : List (List (ι × C))} (h : Shaped W l) (h' : Shaped W l') : Shaped W (l ++ l') :=
  fun p hp => (List.mem_append.1 hp).elim (h p) (h' p)

omit [DecidableEq ι] in
theorem solo_shaped {W : List Nat} (h : 1 ∈ W) (i : ι) (cs : List C) : Shaped W (solo i cs) := by
  intro p hp
  obtain ⟨c, _, rfl⟩ := List.mem_map.1 hp
  exact ⟨by simp, h⟩

section
omit [DecidableEq ι]

theorem shortest_le {v : List (ι × List C)} {p : ι × List C} (h : p ∈ v) : shortest v ≤ p.2.length := by
  unfold shortest
  have hm : p.2.length ∈ v.map fun p => p.2.length := List.mem_map.2 ⟨p, h, rfl⟩
  cases hx : (v.map fun p => p.2.length).min? with
  | none => simp
  | some m => exact (List.min?_eq_some_iff.1 hx).2 _ hm

theorem lockstep_owners (n : Nat) (v : List (ι × List C)) (h : ∀ p ∈ v, n ≤ p.2.length) :
    ∀ p ∈ lockstep n v, p.map (·.1) = v.map (·.1) := by
  induction n generalizing v with
  | zero => intro p hp; simp [lockstep] at hp
  | succ n ih =>
    intro p hp
    rw [lockstep] at hp
    rcases List.mem_cons.1 hp with rfl | hp
    · clear ih hp
      induction v with
      | nil => rfl
      | cons q v ihv =>
        have hq := h q (by simp)
        obtain ⟨j, cs⟩ := q
        cases cs with
        | nil => simp at hq
        | cons c cs =>
          simp only [List.filterMap_cons, List.head?_cons, Option.map_some, List.map_cons]
          rw [ihv (fun p hp => h p (by simp [hp]))]
    · have := ih (v.map fun p => (p.1, p.2.tail)) (by
        intro q hq
        obtain ⟨q', hq', rfl⟩ := List.mem_map.1 hq
        have := h q' hq'
        simp only [List.length_tail]; omega) p hp
      rw [this, List.map_map]; rfl

/-- The visited elements and the ones in the vector. -/
theorem fill_sub (pull : Pull ι C) (T : Nat) (q : List ι) (v : List (ι × List C)) :
    (fill pull T q v).2.2.length < T → (fill pull T q v).2.1 = [] := by
  induction q generalizing v with
  | nil => intro _; rfl
  | cons j q ih =>
    rw [fill]
    split
    · exact ih _
    · intro h; exact absurd h (by assumption)

theorem fill_shaped (pull : Pull ι C) {W : List Nat} (h1 : 1 ∈ W) (T : Nat) (q : List ι) (v : List (ι × List C)) :
    Shaped W (fill pull T q v).1 := by
  induction q generalizing v with
  | nil => intro p hp; simp [fill] at hp
  | cons j q ih =>
    rw [fill]
    split
    · exact (solo_shaped h1 _ _).append (ih _)
    · intro p hp; simp at hp

theorem wide_shaped {W : List Nat} {N : Nat} (hN : N ∈ W) (v : List (ι × List C)) (hv : N ≤ v.length)
    (hnd : (v.map (·.1)).Nodup) : Shaped W (wide N v).1 := by
  intro p hp
  have ho := lockstep_owners _ (v.take N) (fun p hp => shortest_le hp) p hp
  refine ⟨by rw [ho]; exact ((List.take_sublist N v).map _).nodup hnd, ?_⟩
  have := congrArg List.length ho
  simp only [List.length_map, List.length_take] at this
  rw [this, Nat.min_eq_left hv]; exact hN

end

theorem levelIter_shaped (pull : Pull ι C) {W : List Nat} (h1 : 1 ∈ W) {N : Nat} (hN : N ∈ W) (fuel : Nat) (q : List ι)
    (v : List (ι × List C)) (h : Ok q v) : Shaped W (levelIter pull N fuel q v).1 := by
  induction fuel generalizing q v with
  | zero => intro p hp; simp [levelIter] at hp
  | succ fuel ih =>
    simp only [levelIter]
    obtain ⟨h2, _⟩ := fill_mine pull N q v h
    split
    · exact fill_shaped pull h1 N q v
    · rename_i hlt
      have hnd := h2.nodup
      rw [List.nodup_append] at hnd
      exact (fill_shaped pull h1 N q v).append
        ((wide_shaped hN _ (Nat.le_of_not_lt hlt) hnd.2.1).append (ih _ _ (wide_mine pull N _ _ h2).1))

theorem level_shaped (pull : Pull ι C) {W : List Nat} (h1 : 1 ∈ W) {degree N : Nat} (hN : N ≤ degree → N ∈ W) (q : List ι)
    (v : List (ι × List C)) (h : Ok q v) : Shaped W (level pull degree N q v).1 := by
  unfold level
  split
  · rename_i hd; exact levelIter_shaped pull h1 (hN hd) _ q v h
  · intro p hp; simp at hp

omit [DecidableEq ι] in
theorem runVec_shaped {W : List Nat} (h1 : 1 ∈ W) (v : List (ι × List C)) : Shaped W (runVec v) := by
  intro p hp
  obtain ⟨x, _, hx⟩ := List.mem_flatMap.1 hp
  exact solo_shaped h1 _ _ p hx

omit [DecidableEq ι] in
theorem runQueue_shaped (pull : Pull ι C) {W : List Nat} (h1 : 1 ∈ W) (q : List ι) : Shaped W (runQueue pull q) := by
  intro p hp
  obtain ⟨x, _, hx⟩ := List.mem_flatMap.1 hp
  exact ((solo_shaped h1 _ _).append (solo_shaped h1 _ _)) p hx

/-- **No element occupies two lanes of one pass**, and a pass is one lane wide or as wide as a loop the platform has. -/
theorem run_shaped (pull : Pull ι C) {degree hi lo : Nat} {W : List Nat} (h1 : 1 ∈ W) (hhi : hi ≤ degree → hi ∈ W)
    (hlo : lo ≤ degree → lo ∈ W) (q : List ι) (h : q.Nodup) : Shaped W (run pull degree hi lo q) := by
  have h0 : Ok q ([] : List (ι × List C)) := ⟨by simpa using h⟩
  obtain ⟨h2, _⟩ := level_mine pull degree hi q [] h0
  exact (level_shaped pull h1 hhi q [] h0).append ((level_shaped pull h1 hlo _ _ h2).append
    ((runVec_shaped h1 _).append (runQueue_shaped pull h1 _)))

/-! ## How many elements are left for the narrow loops -/

section
omit [DecidableEq ι]

theorem fill_length (pull : Pull ι C) (T : Nat) (q : List ι) (v : List (ι × List C)) :
    (fill pull T q v).2.1.length + (fill pull T q v).2.2.length ≤ q.length + v.length := by
  induction q generalizing v with
  | nil => exact Nat.le_refl _
  | cons j q ih =>
    rw [fill]
    split
    · have := ih (match (pull j).2 with
        | none => v
        | some cs => v ++ [(j, cs)])
      simp only
      revert this
      cases (pull j).2 with
      | none => intro this; simp only [List.length_cons] at *; omega
      | some cs => intro this; simp only [List.length_cons, List.length_append, List.length_nil] at *; omega
    · exact Nat.le_refl _

theorem wide_length {N : Nat} (hN : 0 < N) (v : List (ι × List C)) (hv : N ≤ v.length) : (wide N v).2.length < v.length := by
  have hlen : (v.take N).length = N := by rw [List.length_take]; omega
  have hne : v.take N ≠ [] := by intro h; rw [h] at hlen; simp at hlen; omega
  have hlt : (((v.take N).map fun p => (p.1, p.2.drop (shortest (v.take N)))).filter (fun p => !p.2.isEmpty)).length <
      ((v.take N).map fun p => (p.1, p.2.drop (shortest (v.take N)))).length := by
    apply List.length_filter_lt_length_iff_exists.2
    have hs : ∃ p ∈ v.take N, shortest (v.take N) = p.2.length := by
      unfold shortest
      cases hx : ((v.take N).map fun p => p.2.length).min? with
      | none => rw [List.min?_eq_none_iff, List.map_eq_nil_iff] at hx; exact absurd hx hne
      | some m =>
        obtain ⟨p, hp, he⟩ := List.mem_map.1 (List.min?_eq_some_iff.1 hx).1
        exact ⟨p, hp, he.symm⟩
    obtain ⟨p, hp, he⟩ := hs
    refine ⟨(p.1, p.2.drop (shortest (v.take N))), List.mem_map.2 ⟨p, hp, rfl⟩, ?_⟩
    rw [he]; simp
  simp only [wide, List.length_append, List.length_drop]
  rw [List.length_map, hlen] at hlt
  omega

theorem levelIter_left (pull : Pull ι C) {N : Nat} (hN : 0 < N) (fuel : Nat) (q : List ι) (v : List (ι × List C))
    (hf : q.length + v.length < fuel) :
    (levelIter pull N fuel q v).2.2.length < N ∧ (levelIter pull N fuel q v).2.1 = [] := by
  induction fuel generalizing q v with
  | zero => omega
  | succ fuel ih =>
    simp only [levelIter]
    have h1 := fill_length pull N q v
    split
    · rename_i h; exact ⟨h, fill_sub pull N q v h⟩
    · rename_i h
      have h2 := wide_length hN (fill pull N q v).2.2 (Nat.le_of_not_lt h)
      exact ih _ _ (by omega)

theorem level_left (pull : Pull ι C) {degree N : Nat} (hN : 0 < N) (hd : N ≤ degree) (q : List ι) (v : List (ι × List C)) :
    (level pull degree N q v).2.2.length < N ∧ (level pull degree N q v).2.1 = [] := by
  unfold level
  rw [if_pos hd]
  exact levelIter_left pull hN _ q v (by omega)

/-- The owners of the vector after a level, when nothing is left to visit. -/
theorem wide_owners_sub (N : Nat) (v : List (ι × List C)) : ∀ i ∈ (wide N v).2.map (·.1), i ∈ v.map (·.1) := by
  intro i hi
  simp only [wide, List.map_append, List.mem_append] at hi
  rcases hi with hi | hi
  · have h := (List.filter_sublist (l := (v.take N).map fun p => (p.1, p.2.drop (shortest (v.take N))))
      (p := fun p => !p.2.isEmpty)).map (·.1)
    have h' := h.mem hi
    rw [List.map_map] at h'
    exact ((List.take_sublist N v).map _).mem h'
  · exact ((List.drop_sublist N v).map _).mem hi

/-- Passes of a level whose queue is empty are made by elements of the vector. -/
theorem levelIter_owners (pull : Pull ι C) (N fuel : Nat) (v : List (ι × List C)) :
    (∀ p ∈ (levelIter pull N fuel [] v).1, ∀ i ∈ p.map (·.1), i ∈ v.map (·.1)) ∧
    (∀ i ∈ (levelIter pull N fuel [] v).2.2.map (·.1), i ∈ v.map (·.1)) ∧ (levelIter pull N fuel [] v).2.1 = [] := by
  induction fuel generalizing v with
  | zero => exact ⟨by intro p hp; simp [levelIter] at hp, fun i hi => hi, rfl⟩
  | succ fuel ih =>
    simp only [levelIter, fill]
    by_cases hlt : v.length < N
    · simp only [hlt, ↓reduceIte]
      exact ⟨by intro p hp; simp at hp, fun i hi => hi, trivial⟩
    · simp only [hlt, ↓reduceIte]
      obtain ⟨h1, h2, h3⟩ := ih (wide N v).2
      refine ⟨fun p hp i hi => ?_, fun i hi => wide_owners_sub N v i (h2 i hi), h3⟩
      simp only [List.nil_append] at hp
      rcases List.mem_append.1 hp with hp | hp
      · have := lockstep_owners _ (v.take N) (fun p hp => shortest_le hp) p hp
        rw [this] at hi
        exact ((List.take_sublist N v).map _).mem hi
      · exact wide_owners_sub N v i (h1 p hp i hi)

theorem level_owners (pull : Pull ι C) (degree N : Nat) (v : List (ι × List C)) :
    (∀ p ∈ (level pull degree N [] v).1, ∀ i ∈ p.map (·.1), i ∈ v.map (·.1)) ∧
    (∀ i ∈ (level pull degree N [] v).2.2.map (·.1), i ∈ v.map (·.1)) ∧ (level pull degree N [] v).2.1 = [] := by
  unfold level
  split
  · exact levelIter_owners pull N _ v
  · exact ⟨by intro p hp; simp at hp, fun i hi => hi, rfl⟩

theorem levelIter_wide (pull : Pull ι C) (hp0 : ∀ i, (pull i).1 = []) {N : Nat} (fuel : Nat) (q : List ι)
    (v : List (ι × List C)) : ∀ p ∈ (levelIter pull N fuel q v).1, p.length = N := by
  have hfill : ∀ (q : List ι) (v : List (ι × List C)), (fill pull N q v).1 = [] := by
    intro q
    induction q with
    | nil => intro v; rfl
    | cons j q ih =>
      intro v
      rw [fill]
      split
      · simp only [hp0, ih]; rfl
      · rfl
  induction fuel generalizing q v with
  | zero => intro p hp; simp [levelIter] at hp
  | succ fuel ih =>
    simp only [levelIter]
    split
    · rw [hfill]; intro p hp; simp at hp
    · rename_i hlt
      rw [hfill, List.nil_append]
      intro p hp
      rcases List.mem_append.1 hp with hp | hp
      · have ho := lockstep_owners _ ((fill pull N q v).2.2.take N) (fun p hp => shortest_le hp) p hp
        have := congrArg List.length ho
        simp only [List.length_map, List.length_take] at this
        omega
      · exact ih _ _ p hp

/-- **The wide loops are kept full.** When visiting an element makes no calls and the platform has the widest loop, fewer
than `hi` elements ever take part in a narrower pass. -/
theorem run_saturated (pull : Pull ι C) (hp0 : ∀ i, (pull i).1 = []) {degree hi lo : Nat} (hhi : 0 < hi) (hd : hi ≤ degree)
    (q : List ι) : ∃ S : List ι, S.length < hi ∧
      ∀ p ∈ run pull degree hi lo q, p.length ≠ hi → ∀ i ∈ p.map (·.1), i ∈ S := by
  obtain ⟨h1, h2⟩ := level_left pull hhi hd q []
  refine ⟨(level pull degree hi q []).2.2.map (·.1), by rw [List.length_map]; exact h1, ?_⟩
  intro p hp hlen
  simp only [run, h2] at hp
  obtain ⟨h3, h4, h5⟩ := level_owners pull degree lo (level pull degree hi q []).2.2
  rw [h5] at hp
  rcases List.mem_append.1 hp with hp | hp
  · exfalso
    apply hlen
    unfold level at hp
    rw [if_pos hd] at hp
    exact levelIter_wide pull hp0 _ _ _ p hp
  · rcases List.mem_append.1 hp with hp | hp
    · exact h3 p hp
    · rw [show runQueue pull [] = [] from rfl, List.append_nil] at hp
      obtain ⟨x, hx, hx'⟩ := List.mem_flatMap.1 hp
      obtain ⟨c, _, rfl⟩ := List.mem_map.1 hx'
      intro i hi
      simp only [List.map_cons, List.map_nil, List.mem_cons, List.not_mem_nil, or_false] at hi
      subst hi
      exact h4 _ (List.mem_map.2 ⟨x, hx, rfl⟩)

/-- The same for the second loop: fewer than `lo` elements are ever run alone. -/
theorem run_saturated_lo (pull : Pull ι C) (hp0 : ∀ i, (pull i).1 = []) {degree hi lo : Nat} (hlo : 1 < lo) (hd : lo ≤ degree)
    (hhi : 1 < hi) (q : List ι) : ∃ S : List ι, S.length < lo ∧
      ∀ p ∈ run pull degree hi lo q, p.length = 1 → ∀ i ∈ p.map (·.1), i ∈ S := by
  obtain ⟨h1, h2⟩ := level_left pull (by omega) hd (level pull degree hi q []).2.1 (level pull degree hi q []).2.2
  refine ⟨(level pull degree lo (level pull degree hi q []).2.1 (level pull degree hi q []).2.2).2.2.map (·.1),
    by rw [List.length_map]; exact h1, ?_⟩
  intro p hp hlen
  simp only [run, h2] at hp
  rcases List.mem_append.1 hp with hp | hp
  · exfalso
    unfold level at hp
    split at hp
    · have := levelIter_wide pull hp0 _ _ _ p hp; omega
    · simp at hp
  · rcases List.mem_append.1 hp with hp | hp
    · exfalso
      unfold level at hp
      rw [if_pos hd] at hp
      have := levelIter_wide pull hp0 _ _ _ p hp; omega
    · rw [show runQueue pull [] = [] from rfl, List.append_nil] at hp
      obtain ⟨x, hx, hx'⟩ := List.mem_flatMap.1 hp
      obtain ⟨c, _, rfl⟩ := List.mem_map.1 hx'
      intro i hi
      simp only [List.map_cons, List.map_nil, List.mem_cons, List.not_mem_nil, or_false] at hi
      subst hi
      exact List.mem_map.2 ⟨x, hx, rfl⟩

/-! ### The same when visiting an element makes calls of its own -/

/-- How many passes of a bad width element `i` takes part in. -/
def badPasses [DecidableEq ι] (bad : Nat → Bool) (i : ι) (l : List (List (ι × C))) : Nat :=
  l.countP fun p => bad p.length && decide (i ∈ p.map (·.1))

section
variable [DecidableEq ι] (bad : Nat → Bool) (i : ι)

theorem badPasses_append (l l' : List (List (ι × C))) : badPasses bad i (l ++ l') = badPasses bad i l + badPasses bad i l' := by
  simp [badPasses, List.countP_append]

theorem badPasses_solo (j : ι) (cs : List C) : badPasses bad i (solo j cs) ≤ if j = i then cs.length else 0 := by
  unfold badPasses
  split
  · have := List.countP_le_length (p := fun p : List (ι × C) => bad p.length && decide (i ∈ p.map (·.1))) (l := solo j cs)
    simpa [solo] using this
  · rename_i h
    rw [Nat.le_zero, List.countP_eq_zero]
    intro p hp
    obtain ⟨c, _, rfl⟩ := List.mem_map.1 hp
    simp [Ne.symm h]

theorem badPasses_zero {l : List (List (ι × C))} (h : ∀ p ∈ l, bad p.length = false) : badPasses bad i l = 0 := by
  unfold badPasses
  rw [List.countP_eq_zero]
  intro p hp
  simp [h p hp]

theorem badPasses_zero' {l : List (List (ι × C))} (h : ∀ p ∈ l, i ∉ p.map (·.1)) : badPasses bad i l = 0 := by
  unfold badPasses
  rw [List.countP_eq_zero]
  intro p hp
  simp only [Bool.and_eq_true, decide_eq_true_eq, not_and]
  intro _
  exact h p hp

/-- The calls visiting the elements of the queue will make for `i`. -/
def visits (pull : Pull ι C) (q : List ι) : Nat := (q.map fun j => if j = i then (pull j).1.length else 0).sum

theorem fill_bad (pull : Pull ι C) (T : Nat) (q : List ι) (v : List (ι × List C)) :
    badPasses bad i (fill pull T q v).1 + visits i pull (fill pull T q v).2.1 ≤ visits i pull q := by
  induction q generalizing v with
  | nil => exact Nat.le_refl _
  | cons j q ih =>
    rw [fill]
    split
    · have h1 := ih (match (pull j).2 with
        | none => v
        | some cs => v ++ [(j, cs)])
      have h2 := badPasses_solo bad i j (pull j).1
      simp only [badPasses_append]
      simp only [visits, List.map_cons, List.sum_cons] at h1 ⊢
      omega
    · simp [badPasses]

theorem wide_width (N : Nat) (v : List (ι × List C)) (hv : N ≤ v.length) : ∀ p ∈ (wide N v).1, p.length = N := by
  intro p hp
  have ho := lockstep_owners _ (v.take N) (fun p hp => shortest_le hp) p hp
  have := congrArg List.length ho
  simp only [List.length_map, List.length_take] at this
  omega

theorem levelIter_bad (pull : Pull ι C) {N : Nat} (hN : bad N = false) (fuel : Nat) (q : List ι) (v : List (ι × List C)) :
    badPasses bad i (levelIter pull N fuel q v).1 + visits i pull (levelIter pull N fuel q v).2.1 ≤ visits i pull q := by
  induction fuel generalizing q v with
  | zero => simp [levelIter, badPasses]
  | succ fuel ih =>
    have hf := fill_bad bad i pull N q v
    simp only [levelIter]
    split
    · exact hf
    · rename_i hlt
      have h1 := ih (fill pull N q v).2.1 (wide N (fill pull N q v).2.2).2
      have h2 : badPasses bad i (wide N (fill pull N q v).2.2).1 = 0 := badPasses_zero bad i fun p hp => by
        rw [wide_width N _ (by omega) p hp]; exact hN
      simp only [badPasses_append]
      omega

theorem level_bad (pull : Pull ι C) {degree N : Nat} (hN : bad N = false) (q : List ι) (v : List (ι × List C)) :
    badPasses bad i (level pull degree N q v).1 + visits i pull (level pull degree N q v).2.1 ≤ visits i pull q := by
  unfold level
  split
  · exact levelIter_bad bad i pull hN _ _ _
  · simp [badPasses]

theorem visits_nodup (pull : Pull ι C) (q : List ι) (h : q.Nodup) : visits i pull q ≤ (pull i).1.length := by
  induction q with
  | nil => exact Nat.zero_le _
  | cons j q ih =>
    rw [List.nodup_cons] at h
    simp only [visits, List.map_cons, List.sum_cons]
    by_cases hj : j = i
    · subst hj
      have : (q.map fun k => if k = j then (pull k).1.length else 0).sum = 0 := by
        rw [List.sum_eq_zero_iff_forall_eq_nat]
        intro x hx
        obtain ⟨k, hk, rfl⟩ := List.mem_map.1 hx
        rw [if_neg (by rintro rfl; exact h.1 hk)]
      rw [this, if_pos rfl]; omega
    · rw [if_neg hj, Nat.zero_add]
      exact ih h.2

theorem runVec_owners (v : List (ι × List C)) : ∀ p ∈ runVec v, ∀ i ∈ p.map (·.1), i ∈ v.map (·.1) := by
  intro p hp i hi
  obtain ⟨x, hx, hx'⟩ := List.mem_flatMap.1 hp
  obtain ⟨c, _, rfl⟩ := List.mem_map.1 hx'
  simp only [List.map_cons, List.map_nil, List.mem_cons, List.not_mem_nil, or_false] at hi
  subst hi
  exact List.mem_map.2 ⟨x, hx, rfl⟩

/-- All but fewer than `hi` elements take part in a narrower pass only when they are visited. -/
theorem run_saturated_visits (pull : Pull ι C) {degree hi lo : Nat} (hhi : 0 < hi) (hd : hi ≤ degree) (q : List ι) (hq : q.Nodup) :
    ∃ S : List ι, S.length < hi ∧
      ∀ i, i ∉ S → badPasses (fun n => decide (n ≠ hi)) i (run pull degree hi lo q) ≤ (pull i).1.length := by
  obtain ⟨h1, h2⟩ := level_left pull hhi hd q []
  refine ⟨(level pull degree hi q []).2.2.map (·.1), by rw [List.length_map]; exact h1, ?_⟩
  intro i hi'
  obtain ⟨h3, h4, h5⟩ := level_owners pull degree lo (level pull degree hi q []).2.2
  have h6 := level_bad (fun n => decide (n ≠ hi)) i pull (degree := degree) (N := hi) (by simp) q []
  have h7 := visits_nodup i pull q hq
  simp only [run, h2, h5, badPasses_append]
  rw [badPasses_zero' _ i (fun p hp hm => hi' (h3 p hp i hm)),
    badPasses_zero' _ i (fun p hp hm => hi' (h4 i (runVec_owners _ p hp i hm))), show runQueue pull [] = [] from rfl]
  simp only [badPasses, List.countP_nil] at h6 ⊢
  omega

/-- All but fewer than `lo` elements run alone only when they are visited. -/
theorem run_saturated_lo_visits (pull : Pull ι C) {degree hi lo : Nat} (hlo : 1 < lo) (hd : lo ≤ degree) (hhi : 1 < hi)
    (q : List ι) (hq : q.Nodup) : ∃ S : List ι, S.length < lo ∧
      ∀ i, i ∉ S → badPasses (fun n => decide (n = 1)) i (run pull degree hi lo q) ≤ (pull i).1.length := by
  obtain ⟨h1, h2⟩ := level_left pull (by omega) hd (level pull degree hi q []).2.1 (level pull degree hi q []).2.2
  refine ⟨(level pull degree lo (level pull degree hi q []).2.1 (level pull degree hi q []).2.2).2.2.map (·.1),
    by rw [List.length_map]; exact h1, ?_⟩
  intro i hi'
  have h5 := level_bad (fun n => decide (n = 1)) i pull (degree := degree) (N := hi) (by simp; omega) q []
  have h6 := level_bad (fun n => decide (n = 1)) i pull (degree := degree) (N := lo) (by simp; omega)
    (level pull degree hi q []).2.1 (level pull degree hi q []).2.2
  have h7 := visits_nodup i pull q hq
  simp only [run, h2, badPasses_append]
  rw [badPasses_zero' _ i (fun p hp hm => hi' (runVec_owners _ p hp i hm)), show runQueue pull [] = [] from rfl]
  simp only [badPasses, List.countP_nil] at h5 h6 ⊢
  omega

end

end

theorem mine_length [DecidableEq ι] (i : ι) (log : List (List (ι × C))) (h : ∀ p ∈ log, (p.map (·.1)).Nodup) :
    (mine i log).length = log.countP fun p => decide (i ∈ p.map (·.1)) := by
  induction log with
  | nil => rfl
  | cons p log ih =>
    rw [mine_cons, List.length_append, List.countP_cons, ih (fun q hq => h q (by simp [hq])), Nat.add_comm]
    congr 1
    have hp := h p (by simp)
    clear ih h
    induction p with
    | nil => rfl
    | cons c p ihp =>
      rw [List.map_cons, List.nodup_cons] at hp
      have hi := ihp hp.2
      simp only [mine, List.flatten_cons, List.flatten_nil, List.append_nil, List.filterMap_cons] at hi ⊢
      by_cases hc : c.1 = i
      · subst hc
        simp only [↓reduceIte, List.length_cons, List.map_cons, List.mem_cons, true_or, decide_true]
        rw [hi]
        simp [hp.1]
      · simp only [hc, ↓reduceIte, List.map_cons, List.mem_cons, Ne.symm hc, false_or]
        exact hi

/-- As many elements as lanes, with almost equally many calls to make: every element takes part in at most one narrower pass. -/
theorem run_balanced {N degree lo : Nat} (hN : 1 < N) (hd : N ≤ degree) (calls : Fin N → List C) (n : Nat)
    (h : ∀ i, n ≤ (calls i).length ∧ (calls i).length ≤ n + 1) (i : Fin N) :
    badPasses (fun k => decide (k ≠ N)) i (run (fun i => ([], some (calls i))) degree N lo (List.finRange N)) ≤ 1 := by
  have hsh := run_shaped (fun i : Fin N => (([] : List C), some (calls i))) (degree := degree) (hi := N) (lo := lo)
    (W := [1, N, lo]) (by simp) (by simp) (by simp) _ (List.nodup_finRange N)
  have hmine := fun i => run_mine (fun i : Fin N => (([] : List C), some (calls i))) degree N lo _ (List.nodup_finRange N) i
  obtain ⟨S, hS, hb⟩ := run_saturated_visits (fun i : Fin N => (([] : List C), some (calls i))) (degree := degree) (hi := N)
    (lo := lo) (by omega) hd _ (List.nodup_finRange N)
  generalize run (fun i => ([], some (calls i))) degree N lo (List.finRange N) = log at *
  have hall : ∀ p ∈ log, p.length = N → ∀ i, i ∈ p.map (·.1) := by
    intro p hp hl i
    apply Classical.byContradiction
    intro hi
    have := (List.nodup_cons.2 ⟨hi, (hsh p hp).1⟩).length_le_of_subset (l₂ := List.finRange N)
      (fun x _ => List.mem_finRange x)
    rw [List.length_cons, List.length_map, List.length_finRange] at this
    omega
  have hsplit : ∀ i, (calls i).length = badPasses (fun k => decide (k ≠ N)) i log + log.countP fun p => decide (p.length = N) := by
    intro i
    have h1 := mine_length i log (fun p hp => (hsh p hp).1)
    rw [hmine i, if_pos (List.mem_finRange i)] at h1
    simp only [List.nil_append, Option.getD_some] at h1
    rw [h1]
    clear h1 hmine hb hsh
    unfold badPasses
    induction log with
    | nil => rfl
    | cons p log ih =>
      rw [List.countP_cons, List.countP_cons, List.countP_cons, ih (fun q hq => hall q (by simp [hq]))]
      have := hall p (by simp)
      by_cases hl : p.length = N
      · simp [hl, this hl i]; omega
      · have e : (decide (p.length ≠ N) && decide (i ∈ p.map (·.1))) = decide (i ∈ p.map (·.1)) := by simp [hl]
        have e' : decide (p.length = N) = false := by simp [hl]
        rw [e, e']
        simp only [Bool.false_eq_true, if_false]
        omega
  obtain ⟨i0, hi0⟩ : ∃ i0, i0 ∉ S := by
    apply Classical.byContradiction
    intro hno
    have := (List.nodup_finRange N).length_le_of_subset (l₂ := S) (fun x _ => Classical.not_not.1 fun hx => hno ⟨x, hx⟩)
    rw [List.length_finRange] at this
    omega
  have h0 := hb i0 hi0
  have h1 := hsplit i0
  have h2 := hsplit i
  have h3 := h i0
  have h4 := h i
  simp only [List.length_nil] at h0
  omega
end Blake2.Sched
