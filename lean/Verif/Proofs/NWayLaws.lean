import Verif.Proofs.Portable
import Verif.Model.NWay
import Verif.Model.Intrinsics
/-! # What an N-way implementation must satisfy, and what one transposed compression then computes -/
namespace Blake2
open X86

/-- `g4` on registers, in the order of operations of the SIMD files. -/
def g4R {a : Alg} {N : Nat} {R : Type} (o : VImpl a N R) (A B C D x y : R) : R × R × R × R :=
  let a1 := o.add (o.add A x) B
  let d1 := o.rotA (o.xor D a1)
  let c1 := o.add C d1
  let b1 := o.rotB (o.xor B c1)
  let a2 := o.add (o.add a1 y) b1
  let d2 := o.rotC (o.xor d1 a2)
  let c2 := o.add c1 d2
  let b2 := o.rotD (o.xor b1 c2)
  (a2, b2, c2, d2)

/-- Lane `i` of a register. -/
def VImpl.ln {a : Alg} {N : Nat} {R : Type} (o : VImpl a N R) (i : Fin N) (x : R) : Word a := (o.toInts x)[i]

/-- The lane-wise laws of the wrapped arithmetic intrinsics. -/
structure LaneLaws {a : Alg} {N : Nat} {R : Type} (o : VImpl a N R) : Prop where
  add : ∀ i x y, o.ln i (o.add x y) = o.ln i x + o.ln i y
  xor : ∀ i x y, o.ln i (o.xor x y) = o.ln i x ^^^ o.ln i y
  eq : ∀ i x y, o.ln i (o.eq x y) = cmpeq (o.ln i x) (o.ln i y)
  and : ∀ i x y, o.ln i (o.and x y) = o.ln i x &&& o.ln i y
  negateAnd : ∀ i x y, o.ln i (o.negateAnd x y) = ~~~ o.ln i x &&& o.ln i y
  rotA : ∀ i x, o.ln i (o.rotA x) = (o.ln i x).rotateRight (Portable.rots a).1
  rotB : ∀ i x, o.ln i (o.rotB x) = (o.ln i x).rotateRight (Portable.rots a).2.1
  rotC : ∀ i x, o.ln i (o.rotC x) = (o.ln i x).rotateRight (Portable.rots a).2.2.1
  rotD : ∀ i x, o.ln i (o.rotD x) = (o.ln i x).rotateRight (Portable.rots a).2.2.2
  set1 : ∀ i w, o.ln i (o.set1 w) = w
  setN : ∀ i v, o.ln i (o.setN v) = v[i]

/-- The laws of the transpositions. -/
structure TransposeLaws {a : Alg} {N : Nat} {R : Type} (o : VImpl a N R) : Prop where
  state : ∀ (i : Fin N) w, (o.transposeState w).map (o.ln i) = w[i]
  unstate : ∀ (i : Fin N) h, (o.untransposeState h)[i] = h.map (o.ln i)
  msg : ∀ (i : Fin N) blocks, (o.transposeMsg blocks).map (o.ln i) = Portable.msgWords a blocks[i]

theorem map8 {α β : Type} (f : α → β) (x0 x1 x2 x3 x4 x5 x6 x7 : α) :
    (#v[x0, x1, x2, x3, x4, x5, x6, x7]).map f = #v[f x0, f x1, f x2, f x3, f x4, f x5, f x6, f x7] := by simp

theorem map16 {α β : Type} (f : α → β) (x0 x1 x2 x3 x4 x5 x6 x7 x8 x9 x10 x11 x12 x13 x14 x15 : α) :
    (#v[x0, x1, x2, x3, x4, x5, x6, x7, x8, x9, x10, x11, x12, x13, x14, x15]).map f =
      #v[f x0, f x1, f x2, f x3, f x4, f x5, f x6, f x7, f x8, f x9, f x10, f x11, f x12, f x13, f x14, f x15] := by simp

variable {a : Alg} {N : Nat} {R : Type}

theorem g4R_lane {o : VImpl a N R} (L : LaneLaws o) (i : Fin N) (A B C D x y : R) :
    let q := g4R o A B C D x y
    (o.ln i q.1, o.ln i q.2.1, o.ln i q.2.2.1, o.ln i q.2.2.2) =
      g4 a (o.ln i A) (o.ln i B) (o.ln i C) (o.ln i D) (o.ln i x) (o.ln i y) := by
  simp only [g4R, g4, L.add, L.xor, L.rotA, L.rotB, L.rotC, L.rotD]
  have comm : ∀ p q r : Word a, p + q + r = p + r + q := fun p q r => by
    rw [BitVec.add_assoc, BitVec.add_comm q, BitVec.add_assoc]
  rw [comm (o.ln i A) (o.ln i x)]
  generalize o.ln i A + o.ln i B + o.ln i x = a1
  rw [comm a1 (o.ln i y)]

theorem g4R_lane1 {o : VImpl a N R} (L : LaneLaws o) (i : Fin N) (A B C D x y : R) :
    o.ln i (g4R o A B C D x y).1 = (g4 a (o.ln i A) (o.ln i B) (o.ln i C) (o.ln i D) (o.ln i x) (o.ln i y)).1 := by
  rw [← g4R_lane L]
theorem g4R_lane2 {o : VImpl a N R} (L : LaneLaws o) (i : Fin N) (A B C D x y : R) :
    o.ln i (g4R o A B C D x y).2.1 = (g4 a (o.ln i A) (o.ln i B) (o.ln i C) (o.ln i D) (o.ln i x) (o.ln i y)).2.1 := by
  rw [← g4R_lane L]
theorem g4R_lane3 {o : VImpl a N R} (L : LaneLaws o) (i : Fin N) (A B C D x y : R) :
    o.ln i (g4R o A B C D x y).2.2.1 = (g4 a (o.ln i A) (o.ln i B) (o.ln i C) (o.ln i D) (o.ln i x) (o.ln i y)).2.2.1 := by
  rw [← g4R_lane L]
theorem g4R_lane4 {o : VImpl a N R} (L : LaneLaws o) (i : Fin N) (A B C D x y : R) :
    o.ln i (g4R o A B C D x y).2.2.2 = (g4 a (o.ln i A) (o.ln i B) (o.ln i C) (o.ln i D) (o.ln i x) (o.ln i y)).2.2.2 := by
  rw [← g4R_lane L]

theorem roundColumns_eq (o : VImpl a N R) (m : Vector R 16) (s : Vector (Fin 16) 16) (v : Vector R 16) :
    NWay.roundColumns o m s v =
      let c0 := g4R o v[0] v[4] v[8] v[12] m[s[0]] m[s[1]]
      let c1 := g4R o v[1] v[5] v[9] v[13] m[s[2]] m[s[3]]
      let c2 := g4R o v[2] v[6] v[10] v[14] m[s[4]] m[s[5]]
      let c3 := g4R o v[3] v[7] v[11] v[15] m[s[6]] m[s[7]]
      #v[c0.1, c1.1, c2.1, c3.1, c0.2.1, c1.2.1, c2.2.1, c3.2.1,
         c0.2.2.1, c1.2.2.1, c2.2.2.1, c3.2.2.1, c0.2.2.2, c1.2.2.2, c2.2.2.2, c3.2.2.2] := rfl

theorem roundDiagonals_eq (o : VImpl a N R) (m : Vector R 16) (s : Vector (Fin 16) 16)
    (x0 x1 x2 x3 x4 x5 x6 x7 x8 x9 x10 x11 x12 x13 x14 x15 : R) :
    NWay.roundDiagonals o m s #v[x0, x1, x2, x3, x4, x5, x6, x7, x8, x9, x10, x11, x12, x13, x14, x15] =
      let e0 := g4R o x0 x5 x10 x15 m[s[8]] m[s[9]]
      let e1 := g4R o x1 x6 x11 x12 m[s[10]] m[s[11]]
      let e2 := g4R o x2 x7 x8 x13 m[s[12]] m[s[13]]
      let e3 := g4R o x3 x4 x9 x14 m[s[14]] m[s[15]]
      #v[e0.1, e1.1, e2.1, e3.1, e3.2.1, e0.2.1, e1.2.1, e2.2.1,
         e2.2.2.1, e3.2.2.1, e0.2.2.1, e1.2.2.1, e1.2.2.2, e2.2.2.2, e3.2.2.2, e0.2.2.2] := rfl

/-- Lane `i` of a round is the round on lane `i`. -/
theorem round_lane {o : VImpl a N R} (L : LaneLaws o) (i : Fin N) (m v : Vector R 16) (r : Fin a.rows) :
    (NWay.round o m v r).map (o.ln i) = Portable.round a (m.map (o.ln i)) (v.map (o.ln i)) r := by
  rw [portable_round_eq, NWay.round, roundColumns_eq]
  simp only [roundDiagonals_eq, roundG4]
  simp [g4R_lane1 L, g4R_lane2 L, g4R_lane3 L, g4R_lane4 L]

theorem nway_roundNumbers (a : Alg) : NWay.roundNumbers a = Portable.roundNumbers a := by cases a <;> rfl

theorem rounds_lane {o : VImpl a N R} (L : LaneLaws o) (i : Fin N) (m : Vector R 16) (l : List (Fin a.rows)) (v : Vector R 16) :
    (l.foldl (NWay.round o m) v).map (o.ln i) = l.foldl (Portable.round a (m.map (o.ln i))) (v.map (o.ln i)) := by
  induction l generalizing v with
  | nil => rfl
  | cons r l ih => rw [List.foldl_cons, List.foldl_cons, ih, round_lane L]

/-- The result of the portable compression, written with the final state vector. -/
def feedForward (h : Vector (Word a) 8) (v : Vector (Word a) 16) : Vector (Word a) 8 :=
  #v[h[0] ^^^ (v[0] ^^^ v[8]), h[1] ^^^ (v[1] ^^^ v[9]), h[2] ^^^ (v[2] ^^^ v[10]), h[3] ^^^ (v[3] ^^^ v[11]),
     h[4] ^^^ (v[4] ^^^ v[12]), h[5] ^^^ (v[5] ^^^ v[13]), h[6] ^^^ (v[6] ^^^ v[14]), h[7] ^^^ (v[7] ^^^ v[15])]

/-- The compression function with the counter given as two words. -/
def compressWords (a : Alg) (m : Vector (Word a) 16) (h : Vector (Word a) 8) (lo hi lastBlock lastNode : Word a) :
    Vector (Word a) 8 :=
  feedForward h ((Portable.roundNumbers a).foldl (Portable.round a m) #v[
    h[0], h[1], h[2], h[3], h[4], h[5], h[6], h[7],
    (IV a)[0], (IV a)[1], (IV a)[2], (IV a)[3],
    (IV a)[4] ^^^ lo, (IV a)[5] ^^^ hi, (IV a)[6] ^^^ lastBlock, (IV a)[7] ^^^ lastNode])

theorem portable_compressWords (block : List Byte) (h : Vector (Word a) 8) (count : Count a) (f f1 : Word a) :
    Portable.compressBlock a block h count f f1 =
      compressWords a (Portable.msgWords a block) h (countLow a count) (countHigh a count) f f1 := rfl

/-- Lane `i` of a transposed compression is the compression of lane `i`. -/
theorem compressTransposed_lane {o : VImpl a N R} (L : LaneLaws o) (i : Fin N) (h : Vector R 8) (m : Vector R 16)
    (lo hi f f1 : R) :
    (NWay.compressTransposed o h m lo hi f f1).map (o.ln i) =
      compressWords a (m.map (o.ln i)) (h.map (o.ln i)) (o.ln i lo) (o.ln i hi) (o.ln i f) (o.ln i f1) := by
  have hr := rounds_lane L i m (Portable.roundNumbers a) #v[
    h[0], h[1], h[2], h[3], h[4], h[5], h[6], h[7],
    o.set1 (IV a)[0], o.set1 (IV a)[1], o.set1 (IV a)[2], o.set1 (IV a)[3],
    o.xor (o.set1 (IV a)[4]) lo, o.xor (o.set1 (IV a)[5]) hi,
    o.xor (o.set1 (IV a)[6]) f, o.xor (o.set1 (IV a)[7]) f1]
  have hin : (#v[
    h[0], h[1], h[2], h[3], h[4], h[5], h[6], h[7],
    o.set1 (IV a)[0], o.set1 (IV a)[1], o.set1 (IV a)[2], o.set1 (IV a)[3],
    o.xor (o.set1 (IV a)[4]) lo, o.xor (o.set1 (IV a)[5]) hi,
    o.xor (o.set1 (IV a)[6]) f, o.xor (o.set1 (IV a)[7]) f1] : Vector R 16).map (o.ln i) =
    #v[(h.map (o.ln i))[0], (h.map (o.ln i))[1], (h.map (o.ln i))[2], (h.map (o.ln i))[3],
       (h.map (o.ln i))[4], (h.map (o.ln i))[5], (h.map (o.ln i))[6], (h.map (o.ln i))[7],
      (IV a)[0], (IV a)[1], (IV a)[2], (IV a)[3], (IV a)[4] ^^^ o.ln i lo, (IV a)[5] ^^^ o.ln i hi,
      (IV a)[6] ^^^ o.ln i f, (IV a)[7] ^^^ o.ln i f1] := by
    simp [L.set1, L.xor]
  rw [hin] at hr
  rw [compressWords, ← hr, NWay.compressTransposed, nway_roundNumbers]
  generalize (Portable.roundNumbers a).foldl (NWay.round o m) _ = v
  simp [feedForward, L.xor, BitVec.xor_assoc]

end Blake2
