import Verif.Proofs.TraceErase
import Verif.Proofs.HashSpec
import Verif.TraceSpec
/-! # The compressions run by one hasher -/
namespace Blake2
namespace Traced

variable {a : Alg} {ι κ α β : Type}

/-- The computation that returns `x` and has logged `l`. -/
def ret (x : α) (l : List (Pass a ι)) : Traced a ι α := (.ok (x, l) : Res _)

theorem pure_eq (x : α) : (pure x : Traced a ι α) = ret x [] := rfl

theorem bind_ret {m : Traced a ι α} {f : α → Traced a ι β} {x : α} {y : β} {l l' : List (Pass a ι)}
    (h : m = ret x l) (h' : f x = ret y l') : (m >>= f) = ret y (l ++ l') := by
  subst h
  show (Except.bind (f x) fun r' => Except.ok (r'.1, l ++ r'.2) : Res _) = _
  rw [h']; rfl

theorem lift_bind {r : Res α} {f : α → Traced a ι β} {x : α} (h : r = .ok x) : (liftM r >>= f) = f x := by
  subst h
  show (Except.bind (f x) fun r' => Except.ok (r'.1, [] ++ r'.2) : Res _) = f x
  cases f x <;> rfl

theorem pure_bind' {f : α → Traced a ι β} (x : α) : ((pure x : Traced a ι α) >>= f) = f x :=
  lift_bind (r := .ok x) rfl

theorem lift_ok {r : Res α} {x : α} (h : r = .ok x) : (liftM r : Traced a ι α) = ret x [] := by
  subst h; rfl

theorem emit_bind {p : Pass a ι} {f : Unit → Traced a ι β} {y : β} {l : List (Pass a ι)} (h : f () = ret y l) :
    (emit p >>= f) = ret y (p :: l) := bind_ret (l := [p]) rfl h

theorem ret_inj {x y : α} {l l' : List (Pass a ι)} (h : (ret x l : Traced a ι α) = ret y l') : x = y ∧ l = l' := by
  cases h; exact ⟨rfl, rfl⟩

theorem relabel_ret (f : ι → κ) (x : α) (l : List (Pass a ι)) :
    (ret x l).relabel f = ret x (l.map fun p => p.map fun c => (f c.1, c.2)) := rfl

theorem erase_ret (x : α) (l : List (Pass a ι)) : (ret x l).erase = .ok x := rfl

instance : LawfulMonad (Traced a ι) := LawfulMonad.mk' _
  (id_map := by
    intro α m
    cases m with
    | error f => rfl
    | ok r => show (Except.ok (r.1, r.2 ++ []) : Res _) = _; rw [List.append_nil])
  (pure_bind := fun x _ => pure_bind' x)
  (bind_assoc := by
    intro α β γ m f g
    cases m with
    | error e => rfl
    | ok r =>
      obtain ⟨x, l⟩ := r
      cases h1 : (f x : Res _) with
      | error e =>
        show (Except.bind (Except.bind (f x) _) _ : Res _) = Except.bind (Except.bind (f x) _) _
        rw [h1]; rfl
      | ok r =>
        obtain ⟨y, l'⟩ := r
        show (Except.bind (Except.bind (f x) _) _ : Res _) = Except.bind (Except.bind (f x) _) _
        rw [h1]
        show (Except.bind (g y) _ : Res _) = Except.bind (Except.bind (g y) _) _
        cases h2 : (g y : Res _) with
        | error e => rfl
        | ok r =>
          show (Except.ok (r.1, (l ++ l') ++ r.2) : Res _) = Except.ok (r.1, l ++ (l' ++ r.2))
          rw [List.append_assoc])

end Traced

open Traced

variable {a : Alg} {ι : Type}

/-- The single-block compressions of one owner. -/
def solo (who : ι) (cs : List (Call a)) : List (Pass a ι) := cs.map fun c => [(who, c)]

theorem solo_append (who : ι) (cs ds : List (Call a)) : solo who (cs ++ ds) = solo who cs ++ solo who ds := by simp [solo]

/-- The calls `absorb` consists of. -/
def absorbCalls (a : Alg) (s : Stride) (fin ln : Bool) (c : Count a) (input : List Byte) : List (Call a) :=
  if input.length ≤ s.padded a then
    [⟨Spec.pad a.bb (input.take a.bb), c + BitVec.ofNat _ (min a.bb input.length), flagWord a fin, flagWord a (fin && ln)⟩]
  else
    ⟨input.take a.bb, c + BitVec.ofNat _ a.bb, flagWord a false, flagWord a false⟩ ::
      absorbCalls a s fin ln (c + BitVec.ofNat _ a.bb) (input.drop (s.padded a))
termination_by input.length
decreasing_by
  have := padded_pos a s
  simp only [List.length_drop]; omega

theorem compress1IterT_eq (who : ι) (cb : CompressBlock a) (hcb : cb = Portable.compressBlock a)
    (rd : List Byte → Nat → Nat → Res (List Byte))
    (hrd : ∀ l off n, off + n ≤ l.length → rd l off n = .ok ((l.drop off).take n))
    (s : Stride) (fin ln : Bool) (input : List Byte) (K : Nat) (hK : K = (input.length - 1) / s.padded a)
    (fuel k : Nat) (hk : k ≤ K) (hf : K - k < fuel) (c : Count a) (h : Vector (Word a) 8) :
    compress1IterT who a cb rd input (K * s.padded a) (Spec.pad a.bb ((input.drop (K * s.padded a)).take a.bb))
      (min a.bb (input.length - K * s.padded a)) (flagWord a fin) (flagWord a (fin && ln)) s fuel (k * s.padded a) c h =
      ret (absorb a s fin ln h c (input.drop (k * s.padded a)))
        (solo who (absorbCalls a s fin ln c (input.drop (k * s.padded a)))) := by
  have hP := padded_pos a s
  have hbb := bb_le_padded a s
  have hspec := finOffset_spec (s.padded a) input.length hP
  rw [← hK] at hspec
  induction fuel generalizing k c h with
  | zero => omega
  | succ fuel ih =>
    rw [compress1IterT, absorb, absorbCalls]
    by_cases hkK : k = K
    · subst hkK
      have hle : (input.drop (k * s.padded a)).length ≤ s.padded a := by rw [List.length_drop]; omega
      rw [if_pos hle, if_pos hle]
      simp only [↓reduceIte]
      rw [lift_bind rfl]
      simp only [List.length_drop, hcb]
      exact emit_bind rfl
    · have hlt : k * s.padded a + s.padded a ≤ K * s.padded a := by
        rw [← Nat.succ_mul]; exact Nat.mul_le_mul_right _ (by omega)
      have hne : k * s.padded a ≠ K * s.padded a := by omega
      have hlen : K * s.padded a < input.length := by
        rcases Nat.eq_zero_or_pos input.length with h0 | h0
        · simp [h0] at hK; omega
        · have := Nat.div_mul_le_self (input.length - 1) (s.padded a); rw [← hK] at this; omega
      have hnle : ¬ (input.drop (k * s.padded a)).length ≤ s.padded a := by rw [List.length_drop]; omega
      rw [if_neg hnle, if_neg hnle]
      simp only [if_neg hne]
      rw [lift_bind (x := ((input.drop (k * s.padded a)).take a.bb, a.bb, flagWord a false, flagWord a false)) (by
        rw [hrd input (k * s.padded a) a.bb (by omega)]; rfl)]
      simp only [hcb]
      refine emit_bind ?_
      rw [lift_bind (x := (k + 1) * s.padded a) (by rw [addUsize, if_pos (by omega), Nat.add_mul, Nat.one_mul])]
      rw [hcb] at ih
      rw [ih (k + 1) (by omega) (by omega), List.drop_drop, Nat.add_mul k 1, Nat.one_mul]
      rfl

theorem compress1LoopT_eq (who : ι) (cb : CompressBlock a) (hcb : cb = Portable.compressBlock a)
    (rd : List Byte → Nat → Nat → Res (List Byte))
    (hrd : ∀ l off n, off + n ≤ l.length → rd l off n = .ok ((l.drop off).take n))
    (input : List Byte) (h : Vector (Word a) 8) (c : Count a) (ln fin : Bool) (s : Stride)
    (hok : InputOk a fin input) :
    compress1LoopT who a cb rd input h c ln fin s =
      ret (absorb a s fin ln h c input) (solo who (absorbCalls a s fin ln c input)) := by
  have hP := padded_pos a s
  have hspec := finOffset_spec (s.padded a) input.length hP
  unfold compress1LoopT
  rw [lift_bind (inputDebugAsserts_ok hok)]
  simp only [hspec.1]
  rw [lift_bind (finalBlock_eq a s input _ hspec.2.1)]
  have := compress1IterT_eq who cb hcb rd hrd s fin ln input _ rfl (input.length + 1) 0 (Nat.zero_le _) (by
    have := Nat.div_le_self (input.length - 1) (s.padded a); omega) c h
  simpa using this

/-- Every implementation of `compress1_loop` computes `absorb` by the calls `absorbCalls`. -/
theorem compress1T_eq (who : ι) (plat : Platform) (input : List Byte) (h : Vector (Word a) 8) (c : Count a)
    (ln fin : Bool) (s : Stride) (hok : InputOk a fin input) :
    compress1T who a plat input h c ln fin s =
      ret (absorb a s fin ln h c input) (solo who (absorbCalls a s fin ln c input)) := by
  cases a <;> cases plat
  · exact compress1LoopT_eq who _ rfl arrayRef arrayRef_ok _ _ _ _ _ _ hok
  · exact compress1LoopT_eq who _ rfl arrayRef arrayRef_ok _ _ _ _ _ _ hok
  · exact compress1LoopT_eq who _ BAvx2.compressBlock_eq rawRef rawRef_ok _ _ _ _ _ _ hok
  · exact compress1LoopT_eq who _ rfl arrayRef arrayRef_ok _ _ _ _ _ _ hok
  · exact compress1LoopT_eq who _ SSse41.compressBlock_eq rawRef rawRef_ok _ _ _ _ _ _ hok
  · exact compress1LoopT_eq who _ SSse41.compressBlock_eq rawRef rawRef_ok _ _ _ _ _ _ hok

/-! ## The calls are those of the RFC -/

theorem flagWord_flag (f : Bool) : flagWord a f = Spec.flag a f := by
  cases f
  · rfl
  · simp only [flagWord, Spec.flag, if_true]
    cases a <;> decide

/-- The first `k` (non-final) calls for the data `D`. -/
def leading (a : Alg) (D : List Byte) (k : Nat) : List (Call a) :=
  (List.range k).map fun i => ⟨Spec.dataBlock a D i, BitVec.ofNat _ ((i + 1) * a.bb), 0, 0⟩

theorem leading_zero (D : List Byte) : leading a D 0 = [] := rfl

theorem leading_succ (D : List Byte) (k : Nat) :
    leading a D (k + 1) = leading a D k ++ [⟨Spec.dataBlock a D k, BitVec.ofNat _ ((k + 1) * a.bb), 0, 0⟩] := by
  simp [leading, List.range_succ]

theorem leading_append (D x : List Byte) (k : Nat) (h : k * a.bb ≤ D.length) : leading a (D ++ x) k = leading a D k := by
  induction k with
  | zero => rfl
  | succ k ih =>
    rw [leading_succ, leading_succ, dataBlock_append D x k h, ih (by rw [Nat.add_mul] at h; omega)]

theorem ofNat_mod_pow (n x : Nat) : BitVec.ofNat n (x % 2 ^ n) = BitVec.ofNat n x := by
  apply BitVec.eq_of_toNat_eq; simp

theorem rfcCalls_eq (D : List Byte) (ln : Bool) :
    rfcCalls a D ln = leading a D (Spec.numBlocks a D.length - 1) ++
      [⟨Spec.dataBlock a D (Spec.numBlocks a D.length - 1), BitVec.ofNat _ D.length, Spec.flag a true, Spec.flag a ln⟩] := by
  simp only [rfcCalls, Spec.frames, List.map_append, List.map_map, List.map_cons, List.map_nil, leading, callOf,
    ofNat_mod_pow, bb_eq]
  congr 1
  apply List.map_congr_left
  intro i _
  simp only [Function.comp, callOf, Spec.flag, ofNat_mod_pow]
  rfl

theorem absorbCalls_final (D : List Byte) (ln : Bool) (n k : Nat) (hn : D.length - k * a.bb ≤ n)
    (hk : k = 0 ∨ k * a.bb < D.length) :
    leading a D k ++ absorbCalls a .Serial true ln (BitVec.ofNat _ (k * a.bb)) (D.drop (k * a.bb)) = rfcCalls a D ln := by
  have hb := bb_pos a
  have hkle : k * a.bb ≤ D.length := by rcases hk with h | h <;> simp_all <;> omega
  induction n generalizing k with
  | zero =>
    have hlen0 : D.length = 0 := by rcases hk with h | h <;> simp_all; omega
    have hD : D = [] := List.eq_nil_of_length_eq_zero hlen0
    have hk0 : k = 0 := by rcases hk with h | h <;> simp_all
    subst hD hk0
    have hdd : Spec.numBlocks a ([] : List Byte).length = 1 := by cases a <;> rfl
    rw [absorbCalls, if_pos (by simp), rfcCalls_eq, hdd]
    simp [flagWord_flag, Spec.dataBlock, bb_eq, leading]
  | succ n ih =>
    rw [absorbCalls]
    by_cases hle : (D.drop (k * a.bb)).length ≤ Stride.Serial.padded a
    · rw [if_pos hle]
      have hle' : D.length - k * a.bb ≤ a.bb := by simpa [Stride.padded] using hle
      have hdd : Spec.numBlocks a D.length = k + 1 := by
        unfold Spec.numBlocks
        rw [bb_eq]
        rcases Nat.eq_zero_or_pos D.length with h0 | h0
        · have hk0 : k = 0 := by rcases hk with h | h <;> simp_all
          rw [h0, hk0, Nat.zero_add, Nat.div_eq_of_lt (by omega)]; rfl
        · have hlt : k * a.bb < D.length := by rcases hk with h | h <;> simp_all
          have : (D.length + a.bb - 1) / a.bb = k + 1 := by
            rw [Nat.div_eq_iff hb, Nat.add_mul, Nat.one_mul]; omega
          rw [this]; omega
      rw [rfcCalls_eq, hdd, Nat.add_sub_cancel]
      have e1 : (min a.bb (D.drop (k * a.bb)).length) = D.length - k * a.bb := by rw [List.length_drop]; omega
      have e2 : k * a.bb + (D.length - k * a.bb) = D.length := by omega
      rw [e1, ← BitVec.ofNat_add, e2, flagWord_flag, flagWord_flag, Bool.true_and, Spec.dataBlock, bb_eq]
    · rw [if_neg hle]
      have hgt : a.bb < D.length - k * a.bb := by
        rw [List.length_drop] at hle; exact Nat.lt_of_not_le hle
      have hfull : ((D.drop (k * a.bb)).take a.bb).length = a.bb := by simp; omega
      have hblk : Spec.dataBlock a D k = (D.drop (k * a.bb)).take a.bb := by
        rw [Spec.dataBlock, bb_eq, Spec.pad, hfull]; simp
      have hs : k * a.bb + a.bb = (k + 1) * a.bb := by rw [Nat.add_mul, Nat.one_mul]
      have hpad : Stride.Serial.padded a = a.bb := rfl
      have := ih (k + 1) (by rw [← hs]; omega) (.inr (by rw [← hs]; omega)) (by rw [← hs]; omega)
      rw [leading_succ, List.append_assoc] at this
      rw [ofNat_mul_succ, ← hblk, List.drop_drop, hpad, hs]
      exact this

theorem absorbCalls_nonfinal (D : List Byte) (ln : Bool) (m k : Nat) (hm : 0 < m) (hk : (k + m) * a.bb ≤ D.length) :
    leading a D k ++ absorbCalls a .Serial false ln (BitVec.ofNat _ (k * a.bb)) ((D.drop (k * a.bb)).take (m * a.bb)) =
      leading a D (k + m) := by
  have hb := bb_pos a
  induction m generalizing k with
  | zero => omega
  | succ m ih =>
    have hexp : (k + (m + 1)) * a.bb = k * a.bb + (m * a.bb + a.bb) := by rw [Nat.add_mul, Nat.add_mul m, Nat.one_mul]
    have hm1 : (m + 1) * a.bb = m * a.bb + a.bb := by rw [Nat.add_mul, Nat.one_mul]
    have hlen : ((D.drop (k * a.bb)).take ((m + 1) * a.bb)).length = m * a.bb + a.bb := by simp; omega
    have htk : ((D.drop (k * a.bb)).take ((m + 1) * a.bb)).take a.bb = (D.drop (k * a.bb)).take a.bb := by
      rw [List.take_take, Nat.min_eq_left (by omega)]
    have hfull : ((D.drop (k * a.bb)).take a.bb).length = a.bb := by simp; omega
    have hblk : Spec.dataBlock a D k = (D.drop (k * a.bb)).take a.bb := by
      rw [Spec.dataBlock, bb_eq, Spec.pad, hfull]; simp
    have hpad : Stride.Serial.padded a = a.bb := rfl
    have hs : k * a.bb + a.bb = (k + 1) * a.bb := by rw [Nat.add_mul, Nat.one_mul]
    have hz : flagWord a false = 0 := rfl
    rw [absorbCalls, hlen, hpad, htk, ← hblk, ofNat_mul_succ, hz, Bool.false_and, hz]
    rcases Nat.eq_zero_or_pos m with rfl | hmpos
    · rw [if_pos (by omega)]
      have hp : Spec.pad a.bb (Spec.dataBlock a D k) = Spec.dataBlock a D k := by
        rw [hblk, Spec.pad, hfull]; simp
      have hmin : min a.bb (0 * a.bb + a.bb) = a.bb := by omega
      rw [hp, hmin, ofNat_mul_succ, leading_succ]
    · have : 0 < m * a.bb := Nat.mul_pos hmpos hb
      have ih := ih (k + 1) hmpos (by rw [Nat.add_assoc, Nat.add_comm 1 m]; exact hk)
      rw [leading_succ, List.append_assoc] at ih
      rw [if_neg (by omega), List.drop_take, List.drop_drop, hm1, Nat.add_sub_cancel, hs]
      rw [Nat.add_assoc, Nat.add_comm 1 m] at ih
      exact ih

/-! ## The incremental hasher -/

namespace State

/-- The calls made by `compress_buffer_if_possible`. -/
def cbpCalls (s : State a) (x : List Byte) : List (Call a) :=
  if s.buflen > 0 then
    if x.drop (min (a.bb - s.buflen) x.length) = [] then []
    else absorbCalls a .Serial false s.lastNode s.count (filled s x).buf
  else []

theorem compressBufferIfPossibleT_eq (who : ι) (s : State a) (x : List Byte) (h : s.Sane) :
    s.compressBufferIfPossibleT who x = ret (cbp s x) (solo who (cbpCalls s x)) := by
  unfold compressBufferIfPossibleT cbp cbpCalls
  by_cases hp : s.buflen > 0
  · rw [if_pos hp, if_pos hp, if_pos hp, lift_bind (fillBuf_eq s x h)]
    simp only
    by_cases he : x.drop (min (a.bb - s.buflen) x.length) = []
    · rw [if_pos he, if_pos he]
      simp only [he, List.isEmpty_nil, Bool.not_true, Bool.false_eq_true, if_false]
      rfl
    · rw [if_neg he, if_neg he]
      have hne : (x.drop (min (a.bb - s.buflen) x.length)).isEmpty = false := by simpa using he
      simp only [hne, Bool.not_false, ↓reduceIte]
      have hb := (filled_sane x h).buf
      rw [bind_ret (compress1T_eq who _ _ _ _ _ _ _ (.inr ⟨by
        intro h0; rw [h0] at hb; have := bb_pos a; simp at hb; omega, by rw [hb]; exact Nat.mod_self _⟩)) rfl]
      rw [List.append_nil]
      rfl
  · rw [if_neg hp, if_neg hp, if_neg hp]; rfl

/-- The calls made by the rest of an update. -/
def tailCalls (s : State a) (x : List Byte) : List (Call a) :=
  if 0 < bulk a x then absorbCalls a .Serial false s.lastNode s.count (x.take (bulk a x)) else []

/-- The calls made by `update`. -/
def updCalls (s : State a) (x : List Byte) : List (Call a) :=
  cbpCalls s x ++ if (cbp s x).2 = [] then [] else tailCalls (cbp s x).1 (cbp s x).2

theorem updateT_eq (who : ι) (s : State a) (x : List Byte) (h : s.Sane) :
    s.updateT who x = ret (upd s x) (solo who (updCalls s x)) := by
  obtain ⟨h1, h2⟩ := cbp_sane x h
  unfold updateT upd updCalls
  rw [solo_append]
  refine bind_ret (compressBufferIfPossibleT_eq who s x h) ?_
  generalize cbp s x = p at *
  obtain ⟨s1, x1⟩ := p
  simp only at *
  by_cases he : x1 = []
  · subst he
    rw [if_pos rfl, if_pos rfl]
    simp only [List.length_nil, Nat.zero_sub, Nat.zero_mod, Nat.sub_self, Nat.lt_irrefl, gt_iff_lt, if_false]
    rw [pure_bind']
    simp only
    rw [lift_bind (fillBuf_eq s1 [] h1)]
    simp [filled]; rfl
  · rw [if_neg he, if_neg he]
    obtain ⟨b1, b2, b3, b4⟩ := bulk_spec (a := a) x1 he
    have hz := h2 he
    rw [b3]
    unfold tailCalls
    by_cases hpos : 0 < bulk a x1
    · have hok : InputOk a false (x1.take (bulk a x1)) := .inr ⟨by
        intro h0; have := congrArg List.length h0; rw [List.length_take, List.length_nil] at this; omega, by
        rw [List.length_take, Nat.min_eq_left (Nat.le_of_lt b1)]; exact b4⟩
      rw [if_pos hpos]
      simp only [gt_iff_lt, hpos, if_true]
      obtain ⟨s2, hs2⟩ : ∃ s2 : State a, s2 = { s1 with
          words := absorb a .Serial false s1.lastNode s1.words s1.count (x1.take (bulk a x1)),
          count := s1.count + BitVec.ofNat (2 * a.w) (bulk a x1) } := ⟨_, rfl⟩
      have hsane : s2.Sane := by
        refine ⟨by rw [hs2]; exact h1.buflen, by rw [hs2]; exact h1.buf, ?_⟩
        have hdvd : a.bb ∣ 2 ^ (2 * a.w) := Nat.dvd_trans (bb_dvd a) (Nat.pow_dvd_pow _ (by omega))
        simp only [hs2, BitVec.toNat_add, BitVec.toNat_ofNat]
        rw [Nat.mod_mod_of_dvd _ hdvd, Nat.add_mod, h1.count, Nat.mod_mod_of_dvd _ hdvd, b4]
        simp
      have hmid : (do
          let blocks ← (sliceTo x1 (bulk a x1) : Res _)
          let words ← compress1T who a s1.implementation blocks s1.words s1.count s1.lastNode false .Serial
          let input ← (sliceFrom x1 (bulk a x1) : Res _)
          pure (({ s1 with words := words, count := s1.count + BitVec.ofNat (2 * a.w) (bulk a x1) } : State a), input) :
            Traced a ι (State a × List Byte)) =
          ret (s2, x1.drop (bulk a x1))
            (solo who (absorbCalls a .Serial false s1.lastNode s1.count (x1.take (bulk a x1)))) := by
        rw [lift_bind (x := x1.take (bulk a x1)) (by rw [sliceTo, if_pos (Nat.le_of_lt b1)])]
        rw [bind_ret (compress1T_eq who _ _ _ _ _ _ _ hok) (y := (s2, x1.drop (bulk a x1))) (l' := []) ?_, List.append_nil]
        rw [lift_bind (x := x1.drop (bulk a x1)) (by rw [sliceFrom, if_pos (Nat.le_of_lt b1)]), hs2]
        rfl
      rw [bind_ret hmid (y := tail s1 x1) (l' := []) ?_, List.append_nil]
      simp only
      rw [lift_bind (fillBuf_eq _ _ hsane)]
      subst hs2
      have hmin : min (a.bb - 0) (x1.drop (bulk a x1)).length = x1.length - bulk a x1 := by
        rw [List.length_drop]; omega
      simp only [filled, tail, hz, hmin, List.take_zero, List.nil_append, Nat.zero_add, hpos, if_true]
      rw [List.take_of_length_le (l := x1.drop (bulk a x1)) (by rw [List.length_drop]; omega)]
      rfl
    · have h0 : bulk a x1 = 0 := by omega
      rw [if_neg hpos]
      simp only [gt_iff_lt, hpos, if_false]
      rw [pure_bind']
      simp only
      rw [lift_bind (fillBuf_eq _ _ h1)]
      have hmin : min a.bb x1.length = x1.length := by omega
      simp [filled, tail, hmin, hz, h0]; rfl

theorem finalizeT_eq (who : ι) (s : State a) (h : s.Sane) :
    s.finalizeT who = ret
      { bytes := stateWordsToBytes a (absorb a .Serial true s.lastNode s.words s.count (s.buf.take s.buflen))
        len := s.hashLength }
      (solo who (absorbCalls a .Serial true s.lastNode s.count (s.buf.take s.buflen))) := by
  unfold finalizeT
  rw [lift_bind (x := s.buf.take s.buflen) (by
    rw [sliceTo, if_pos (show s.buflen ≤ s.buf.length by rw [h.buf]; exact h.buflen)])]
  rw [bind_ret (compress1T_eq who _ _ _ _ _ _ _ (.inl rfl)) rfl, List.append_nil]

theorem Mid.unique {h0 : Vector (Word a) 8} {D : List Byte} {k k' : Nat} {s : State a} {x : List Byte}
    (h : Mid h0 D k s x) (h' : Mid h0 D k' s x) : k = k' := by
  have e1 := congrArg List.length h.rest
  have e2 := congrArg List.length h'.rest
  have l1 := h.lt
  have l2 := h'.lt
  rw [List.length_drop] at e1 e2
  exact Nat.eq_of_mul_eq_mul_right (bb_pos a) (by omega)

theorem cbp_calls {h0 : Vector (Word a) 8} {D : List Byte} {k : Nat} {s : State a} (h : Inv h0 D k s) (x : List Byte) :
    ((cbp s x).2 = [] → cbpCalls s x = []) ∧
    ∀ k', Mid h0 (D ++ x) k' (cbp s x).1 (cbp s x).2 →
      leading a (D ++ x) k ++ cbpCalls s x = leading a (D ++ x) k' := by
  have hle := h.le
  have hbl := h.buflen
  have hsm := h.small
  have hbuf := h.bufLength
  unfold cbp cbpCalls
  by_cases hp : s.buflen > 0
  · rw [if_pos hp, if_pos hp]
    simp only
    by_cases he : x.drop (min (a.bb - s.buflen) x.length) = []
    · rw [if_pos he, if_pos he]
      refine ⟨fun _ => rfl, fun k' hm => ?_⟩
      exfalso
      have := congrArg List.length hm.rest
      have l := hm.lt
      rw [List.length_drop, List.length_nil] at this
      omega
    · rw [if_neg he, if_neg he]
      refine ⟨fun h => absurd h he, fun k' hm => ?_⟩
      have hxl : min (a.bb - s.buflen) x.length = a.bb - s.buflen ∧ a.bb - s.buflen < x.length := by
        have := List.length_pos_iff.2 he
        rw [List.length_drop] at this; omega
      have hs : (k + 1) * a.bb = k * a.bb + a.bb := by rw [Nat.add_mul, Nat.one_mul]
      have hk' : k' = k + 1 := by
        have := congrArg List.length hm.rest
        have l := hm.lt
        simp only [List.length_drop, List.length_append] at this l
        exact Nat.eq_of_mul_eq_mul_right (bb_pos a) (by omega)
      subst hk'
      have hfill : (filled s x).buf = ((D ++ x).drop (k * a.bb)).take (1 * a.bb) := by
        rw [Nat.one_mul, List.drop_append_of_le_length hle, ← h.buf]
        simp only [filled, hxl.1]
        rw [List.drop_eq_nil_of_le (by omega), List.append_nil, List.take_append]
        rw [List.take_take, List.length_take, Nat.min_eq_left (show s.buflen ≤ s.buf.length by omega), Nat.min_eq_right hsm]
      rw [hfill, h.count]
      apply absorbCalls_nonfinal _ _ _ _ Nat.one_pos
      rw [hs, List.length_append]; omega
  · rw [if_neg hp, if_neg hp]
    refine ⟨fun _ => rfl, fun k' hm => ?_⟩
    have hk0 : k = 0 := by rcases h.pos with h | h <;> omega
    have hD : D = [] := List.eq_nil_of_length_eq_zero (by subst hk0; omega)
    subst hk0 hD
    have := congrArg List.length hm.rest
    have l := hm.lt
    simp only [List.length_drop, List.length_append, List.length_nil] at this l
    have hk' : k' = 0 := Nat.eq_of_mul_eq_mul_right (bb_pos a) (by omega)
    rw [hk', List.append_nil]

theorem tail_calls {h0 : Vector (Word a) 8} {D : List Byte} {k : Nat} {s : State a} {x : List Byte}
    (h : Mid h0 D k s x) : ∃ k', Inv h0 D k' (tail s x) ∧ leading a D k ++ tailCalls s x = leading a D k' := by
  obtain ⟨k', hi⟩ := tail_inv h
  refine ⟨k', hi, ?_⟩
  have hxl : x.length = D.length - k * a.bb := by rw [h.rest, List.length_drop]
  have hlt := h.lt
  have hx : x ≠ [] := by intro he; rw [he] at hxl; simp at hxl; omega
  obtain ⟨b1, b2, b3, b4⟩ := bulk_spec (a := a) x hx
  have hbk : bulk a x = (x.length - 1) / a.bb * a.bb := rfl
  have hs : (k + (x.length - 1) / a.bb) * a.bb = k * a.bb + bulk a x := by rw [Nat.add_mul, ← hbk]
  have hk' : k' = k + (x.length - 1) / a.bb := by
    have e1 : (tail s x).buflen = x.length - bulk a x := rfl
    have e2 := hi.buflen
    have e3 := hi.le
    refine Nat.eq_of_mul_eq_mul_right (bb_pos a) ?_
    rw [hs]; omega
  rw [hk']
  unfold tailCalls
  by_cases hp : 0 < bulk a x
  · rw [if_pos hp, h.count]
    have hpos : 0 < (x.length - 1) / a.bb := by
      rcases Nat.eq_zero_or_pos ((x.length - 1) / a.bb) with h0 | h0
      · rw [hbk, h0] at hp; omega
      · exact h0
    have := absorbCalls_nonfinal D s.lastNode _ k hpos (by rw [hs]; omega)
    rw [← h.rest] at this
    exact this
  · rw [if_neg hp]
    have : (x.length - 1) / a.bb = 0 := by
      rcases Nat.eq_zero_or_pos ((x.length - 1) / a.bb) with h0 | h0
      · exact h0
      · have := Nat.mul_pos h0 (bb_pos a); omega
    rw [this, List.append_nil]; rfl

theorem upd_calls {h0 : Vector (Word a) 8} {D : List Byte} {k : Nat} {s : State a} (h : Inv h0 D k s) (x : List Byte) :
    ∃ k', Inv h0 (D ++ x) k' (upd s x) ∧ leading a D k ++ updCalls s x = leading a (D ++ x) k' := by
  obtain ⟨h1, h2⟩ := cbp_inv h x
  obtain ⟨c1, c2⟩ := cbp_calls h x
  rw [← leading_append D x k h.le]
  unfold upd updCalls
  by_cases he : (cbp s x).2 = []
  · rw [if_pos he, if_pos he, c1 he]
    exact ⟨k, h1 he, by simp⟩
  · rw [if_neg he, if_neg he]
    obtain ⟨k', hm⟩ := h2 he
    obtain ⟨k'', h3, h4⟩ := tail_calls hm
    refine ⟨k'', h3, ?_⟩
    rw [← List.append_assoc, c2 k' hm]; exact h4

theorem finalize_calls {h0 : Vector (Word a) 8} {D : List Byte} {k : Nat} {s : State a} (h : Inv h0 D k s) (who : ι) :
    ∃ cs, s.finalizeT who = ret ⟨stateWordsToBytes a (Spec.process a h0 D s.lastNode), s.hashLength⟩
      (solo who cs) ∧ leading a D k ++ cs = rfcCalls a D s.lastNode := by
  refine ⟨_, ?_, absorbCalls_final D s.lastNode _ k (Nat.le_refl _) h.pos⟩
  rw [finalizeT_eq who s h.sane, h.buf, h.words, h.count, absorb_final h0 D s.lastNode _ k (Nat.le_refl _) h.pos]

end State

end Blake2
