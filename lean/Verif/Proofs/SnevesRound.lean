import Verif.Proofs.SnevesB
/-! # The transposed compression of the C code, lane by lane -/
namespace Blake2.Sneves
open X86
variable {a : Alg} {N : Nat} {R : Type}

/-- The operations of an N-way implementation the C macros use. -/
def toOps (o : VImpl a N R) : VOps R where
  add := o.add
  xor := o.xor
  rotA := o.rotA
  rotB := o.rotB
  rotC := o.rotC
  rotD := o.rotD

theorem roundColumns_eq (o : VImpl a N R) (m v : Vector R 16) :
    roundColumns (toOps o) m v =
      let c0 := g4R o v[0] v[4] v[8] v[12] m[0] m[1]
      let c1 := g4R o v[1] v[5] v[9] v[13] m[2] m[3]
      let c2 := g4R o v[2] v[6] v[10] v[14] m[4] m[5]
      let c3 := g4R o v[3] v[7] v[11] v[15] m[6] m[7]
      #v[c0.1, c1.1, c2.1, c3.1, c0.2.1, c1.2.1, c2.2.1, c3.2.1,
         c0.2.2.1, c1.2.2.1, c2.2.2.1, c3.2.2.1, c0.2.2.2, c1.2.2.2, c2.2.2.2, c3.2.2.2] := rfl

theorem roundDiagonals_eq (o : VImpl a N R) (m : Vector R 16)
    (x0 x1 x2 x3 x4 x5 x6 x7 x8 x9 x10 x11 x12 x13 x14 x15 : R) :
    roundDiagonals (toOps o) m #v[x0, x1, x2, x3, x4, x5, x6, x7, x8, x9, x10, x11, x12, x13, x14, x15] =
      let e0 := g4R o x0 x5 x10 x15 m[8] m[9]
      let e1 := g4R o x1 x6 x11 x12 m[10] m[11]
      let e2 := g4R o x2 x7 x8 x13 m[12] m[13]
      let e3 := g4R o x3 x4 x9 x14 m[14] m[15]
      #v[e0.1, e1.1, e2.1, e3.1, e3.2.1, e0.2.1, e1.2.1, e2.2.1,
         e2.2.2.1, e3.2.2.1, e0.2.2.1, e1.2.2.1, e1.2.2.2, e2.2.2.2, e3.2.2.2, e0.2.2.2] := rfl

theorem loadAt_eq (m : Vector R 16) (k : Fin 16) : loadAt m (32 * k.val) = .ok m[k] := by
  have hk := k.isLt
  rw [loadAt, dif_pos (by omega)]
  refine congrArg Except.ok ?_
  show m[32 * k.val / 32]'_ = m[k.val]
  congr 1; omega

/-- A row of byte offsets. -/
def offsets (s : Vector (Fin 16) 16) : Vector Nat 16 := s.map fun k => 32 * k.val

theorem loadRow_eq (m : Vector R 16) (s : Vector (Fin 16) 16) : loadRow m (offsets s) = .ok (s.map fun k => m[k]) := by
  have e : ∀ i (h : i < 16), loadAt m ((offsets s)[i]) = .ok m[s[i]] := by
    intro i h
    rw [offsets, Vector.getElem_map]; exact loadAt_eq m _
  unfold loadRow
  rw [e 0, e 1, e 2, e 3, e 4, e 5, e 6, e 7, e 8, e 9, e 10, e 11, e 12, e 13, e 14, e 15]
  simp only [bind, Except.bind]
  refine congrArg Except.ok ?_
  rw [vec16_eta (s.map fun k => m[k])]
  simp only [Vector.getElem_map]

theorem roundV_eq (o : VImpl a N R) (w v : Vector R 16) (r : Fin a.rows) :
    roundV (toOps o) w v (offsets (SIGMA a)[r]) = .ok (NWay.round o w v r) := by
  rw [roundV, loadRow_eq]
  simp only [bind, Except.bind]
  refine congrArg Except.ok ?_
  rw [roundColumns_eq, NWay.round, Blake2.roundColumns_eq]
  simp only [roundDiagonals_eq, Blake2.roundDiagonals_eq, Vector.getElem_map]

theorem rounds_eq (o : VImpl a N R) (w : Vector R 16) (l : List (Fin a.rows)) (v : Vector R 16) :
    (l.map fun r => offsets (SIGMA a)[r]).foldlM (roundV (toOps o) w) v = .ok (l.foldl (NWay.round o w) v) := by
  induction l generalizing v with
  | nil => rfl
  | cons r l ih =>
    rw [List.map_cons, List.foldlM_cons, roundV_eq, List.foldl_cons, ← ih]; rfl

/-- The eight vectors of the state after a compression with the final vectors `v`. -/
def feed (o : VImpl a N R) (h : Vector R 8) (v : Vector R 16) : Vector R 8 :=
  Vector.ofFn fun i : Fin 8 => o.xor (o.xor v[i.val] v[i.val + 8]) h[i.val]

theorem feed_lane {o : VImpl a N R} (L : LaneLaws o) (i : Fin N) (h : Vector R 8) (v : Vector R 16) :
    (feed o h v).map (o.ln i) = feedForward (h.map (o.ln i)) (v.map (o.ln i)) := by
  rw [vec8_eta ((feed o h v).map (o.ln i))]
  simp [feed, feedForward, L.xor, BitVec.xor_comm]
  exact ⟨rfl, rfl, rfl, rfl, rfl⟩

/-- A transposed compression, lane by lane. -/
theorem compress_lane {o : VImpl a N R} (L : LaneLaws o) (i : Fin N) (h : Vector R 8) (m : Vector R 16) (lo hi f f1 : R) :
    (feed o h ((Portable.roundNumbers a).foldl (NWay.round o m) #v[
      h[0], h[1], h[2], h[3], h[4], h[5], h[6], h[7],
      o.set1 (IV a)[0], o.set1 (IV a)[1], o.set1 (IV a)[2], o.set1 (IV a)[3],
      o.xor (o.set1 (IV a)[4]) lo, o.xor (o.set1 (IV a)[5]) hi,
      o.xor (o.set1 (IV a)[6]) f, o.xor (o.set1 (IV a)[7]) f1])).map (o.ln i) =
      compressWords a (m.map (o.ln i)) (h.map (o.ln i)) (o.ln i lo) (o.ln i hi) (o.ln i f) (o.ln i f1) := by
  rw [feed_lane L, rounds_lane L, compressWords]
  refine congrArg (feedForward _) (congrArg (fun x => (Portable.roundNumbers a).foldl (Portable.round a (m.map (o.ln i))) x) ?_)
  simp [L.set1, L.xor]

theorem loadu256At_eq (m : List Byte) (off : Nat) (h : off + 32 ≤ m.length) :
    loadu256At m off = .ok (mm256_loadu_si256 ((m.drop off).take 32)) := by
  rw [loadu256At, rawRef, if_pos h]; rfl

theorem loadMessage_eq (m : List Byte) (h : 512 ≤ m.length) :
    loadMessage m = .ok (Vector.ofFn fun k : Fin 16 => mm256_loadu_si256 ((m.drop (k.val * 32)).take 32)) := by
  have e : ∀ k, k < 16 → loadu256At m (k * 32) = .ok (mm256_loadu_si256 ((m.drop (k * 32)).take 32)) :=
    fun k hk => loadu256At_eq m _ (by omega)
  unfold loadMessage
  rw [e 0 (by decide), e 1 (by decide), e 2 (by decide), e 3 (by decide), e 4 (by decide), e 5 (by decide), e 6 (by decide),
    e 7 (by decide), e 8 (by decide), e 9 (by decide), e 10 (by decide), e 11 (by decide), e 12 (by decide), e 13 (by decide),
    e 14 (by decide), e 15 (by decide)]
  simp only [bind, Except.bind]
  refine congrArg Except.ok ?_
  rw [vec16_eta (Vector.ofFn _)]
  simp

end Blake2.Sneves

namespace Blake2.SnevesBp
open X86 SnevesB Sneves

theorem ops_eq : ops = toOps BAvx2.impl := by
  unfold ops toOps
  rw [rot32_eq, rot24_eq, rot16_eq, rot63_eq]; rfl

theorem sigma_eq : blake2b_sigma.toList = (Portable.roundNumbers .b).map fun r => offsets (SIGMA .b)[r] := by
  decide +kernel

/-- The four blocks of a stripe. -/
def blocks (m : List Byte) : Vector (List Byte) 4 := Vector.ofFn fun i => m.drop (i.val * 128)

theorem pack_of (bl : Vector (List Byte) 4) : BAvx2.transposeMsg bl = packMsgV4 #v[
    BAvx2.loadBlock bl[0] 0, BAvx2.loadBlock bl[0] 1, BAvx2.loadBlock bl[0] 2, BAvx2.loadBlock bl[0] 3,
    BAvx2.loadBlock bl[1] 0, BAvx2.loadBlock bl[1] 1, BAvx2.loadBlock bl[1] 2, BAvx2.loadBlock bl[1] 3,
    BAvx2.loadBlock bl[2] 0, BAvx2.loadBlock bl[2] 1, BAvx2.loadBlock bl[2] 2, BAvx2.loadBlock bl[2] 3,
    BAvx2.loadBlock bl[3] 0, BAvx2.loadBlock bl[3] 1, BAvx2.loadBlock bl[3] 2, BAvx2.loadBlock bl[3] 3] := rfl

theorem pack_eq (m : List Byte) :
    packMsgV4 (Vector.ofFn fun k : Fin 16 => mm256_loadu_si256 ((m.drop (k.val * 32)).take 32)) = BAvx2.impl.transposeMsg (blocks m) := by
  have e : ∀ (i q : Nat) (hi : i < 4) (_ : q < 4), BAvx2.loadBlock (blocks m)[i] q = mm256_loadu_si256 ((m.drop ((4 * i + q) * 32)).take 32) := by
    intro i q hi hq
    rw [BAvx2.loadBlock, blocks, Vector.getElem_ofFn, List.drop_drop]
    refine congrArg (fun k => mm256_loadu_si256 ((m.drop k).take 32)) ?_
    show i * 128 + 32 * q = (4 * i + q) * 32
    omega
  refine Eq.trans ?_ (pack_of (blocks m)).symm
  refine congrArg packMsgV4 ?_
  refine Vector.ext fun k hk => ?_
  rw [Vector.getElem_ofFn]
  match k, hk with
  | 0, _ => exact (e 0 0 (by decide) (by decide)).symm
  | 1, _ => exact (e 0 1 (by decide) (by decide)).symm
  | 2, _ => exact (e 0 2 (by decide) (by decide)).symm
  | 3, _ => exact (e 0 3 (by decide) (by decide)).symm
  | 4, _ => exact (e 1 0 (by decide) (by decide)).symm
  | 5, _ => exact (e 1 1 (by decide) (by decide)).symm
  | 6, _ => exact (e 1 2 (by decide) (by decide)).symm
  | 7, _ => exact (e 1 3 (by decide) (by decide)).symm
  | 8, _ => exact (e 2 0 (by decide) (by decide)).symm
  | 9, _ => exact (e 2 1 (by decide) (by decide)).symm
  | 10, _ => exact (e 2 2 (by decide) (by decide)).symm
  | 11, _ => exact (e 2 3 (by decide) (by decide)).symm
  | 12, _ => exact (e 3 0 (by decide) (by decide)).symm
  | 13, _ => exact (e 3 1 (by decide) (by decide)).symm
  | 14, _ => exact (e 3 2 (by decide) (by decide)).symm
  | 15, _ => exact (e 3 3 (by decide) (by decide)).symm
  | k + 16, hk => exact absurd hk (by omega)

theorem lane_q4 (a b c d : BitVec 64) (i : Fin 4) : lane 64 (q4 a b c d) i.val = (#v[a, b, c, d] : Vector (BitVec 64) 4)[i] := by
  match i with
  | ⟨0, _⟩ => exact lane_q4_0 a b c d
  | ⟨1, _⟩ => exact lane_q4_1 a b c d
  | ⟨2, _⟩ => exact lane_q4_2 a b c d
  | ⟨3, _⟩ => exact lane_q4_3 a b c d

theorem lane_mask (flag : M256) (x : BitVec 64) (i : Fin 4) :
    lane 64 (flag &&& q4 0 0 0 x) i.val = if i.val = 3 then lane 64 flag i.val &&& x else 0 := by
  rw [lane_and, lane_q4]
  match i with
  | ⟨0, _⟩ => exact BitVec.and_zero
  | ⟨1, _⟩ => exact BitVec.and_zero
  | ⟨2, _⟩ => exact BitVec.and_zero
  | ⟨3, _⟩ => rfl

theorem lane_zero (i : Fin 4) : lane 64 (0 : M256) i.val = 0 := by
  rw [show (0 : M256) = BitVec.ofNat 256 0 from rfl, lane_ofNat _ _ (by omega), Nat.zero_div]; rfl

/-- Word `k` of the four blocks of a stripe. -/
def word4 (m : List Byte) (k : Nat) : M256 :=
  q4 (fromLE 64 ((m.drop (k * 8 + 0 * 8)).take 8)) (fromLE 64 ((m.drop (k * 8 + 16 * 8)).take 8))
    (fromLE 64 ((m.drop (k * 8 + 32 * 8)).take 8)) (fromLE 64 ((m.drop (k * 8 + 48 * 8)).take 8))

theorem gatherMsgV4_eq (m : List Byte) (hm : 512 ≤ m.length) : gatherMsgV4 m = .ok (Vector.ofFn fun k : Fin 16 => word4 m k.val) := by
  have e : ∀ k, k < 16 → mm256_i32gather_epi64 m (k * 8) (mm_set_epi32 48 32 16 0) 8 = .ok (word4 m k) := fun k hk =>
    gather64_eq m (k * 8) 0 16 32 48 (by omega) (by omega) (by omega) (by omega) (by omega) (by omega) (by omega) (by omega)
  unfold gatherMsgV4
  rw [e 0 (by decide), e 1 (by decide), e 2 (by decide), e 3 (by decide), e 4 (by decide), e 5 (by decide), e 6 (by decide),
    e 7 (by decide), e 8 (by decide), e 9 (by decide), e 10 (by decide), e 11 (by decide), e 12 (by decide), e 13 (by decide),
    e 14 (by decide), e 15 (by decide)]
  simp only [bind, Except.bind]
  refine congrArg Except.ok ?_
  rw [vec16_eta (Vector.ofFn _)]
  simp

/-- The message loads, each way: lane `i` holds the words of block `i`. -/
theorem loadMsgV4_eq (p : Permute) (m : List Byte) (hm : 512 ≤ m.length) :
    ∃ w, loadMsgV4 p m = .ok w ∧ ∀ i : Fin 4, w.map (BAvx2.impl.ln i) = Portable.msgWords .b (m.drop (i.val * 128)) := by
  have hshuffle : ∀ i : Fin 4, (BAvx2.impl.transposeMsg (blocks m)).map (BAvx2.impl.ln i) = Portable.msgWords .b (m.drop (i.val * 128)) := by
    intro i
    have hb : (blocks m)[i] = m.drop (i.val * 128) := by
      show (blocks m)[i.val] = _
      rw [blocks, Vector.getElem_ofFn]
    rw [BAvx2.tlaws.msg i (blocks m), hb]
  have hload : ∃ w, (loadMessage m >>= fun t => Except.ok (packMsgV4 t) : Res _) = .ok w ∧
      ∀ i : Fin 4, w.map (BAvx2.impl.ln i) = Portable.msgWords .b (m.drop (i.val * 128)) := by
    rw [loadMessage_eq m hm]
    exact ⟨_, congrArg Except.ok (pack_eq m), hshuffle⟩
  cases p with
  | shuffles => exact hload
  | none => exact hload
  | gather =>
    refine ⟨_, gatherMsgV4_eq m hm, fun i => Vector.ext fun k hk => ?_⟩
    rw [Vector.getElem_map, Vector.getElem_ofFn, BAvx2.ln_eq, word4, lane_q4]
    refine Eq.trans ?_ (Sneves.msgWords_get .b (m.drop (i.val * 128)) ⟨k, hk⟩).symm
    show _ = fromLE 64 (((m.drop (i.val * 128)).drop (k * 8)).take 8)
    rw [List.drop_drop, show i.val * 128 + k * 8 = k * 8 + i.val * 16 * 8 from by omega]
    match i with
    | ⟨0, _⟩ => rfl
    | ⟨1, _⟩ => rfl
    | ⟨2, _⟩ => rfl
    | ⟨3, _⟩ => rfl

/-- One transposed compression: lane `i` compresses block `i` of the stripe. -/
theorem compressV4_eq (p : Permute) (v : Vector M256 8) (m : List Byte) (counter flag : M256) (hm : 512 ≤ m.length) :
    ∃ r, compressV4 p v m counter flag = .ok r ∧ ∀ i : Fin 4, r.map (BAvx2.impl.ln i) =
      compressWords .b (Portable.msgWords .b (m.drop (i.val * 128))) (v.map (BAvx2.impl.ln i)) (lane 64 counter i.val) 0
        (lane 64 flag i.val) (if i.val = 3 then lane 64 flag i.val else 0) := by
  unfold compressV4
  obtain ⟨w, hw, hmsg⟩ := loadMsgV4_eq p m hm
  rw [hw]
  simp only [bind, Except.bind]
  rw [ops_eq, sigma_eq, Sneves.rounds_eq]
  refine ⟨_, rfl, fun i => ?_⟩
  have h := compress_lane BAvx2.laws i v w counter 0 flag
    (and flag (mm256_set_epi64x (BitVec.allOnes 64) 0 0 0))
  rw [hmsg, BAvx2.ln_eq, BAvx2.ln_eq, BAvx2.ln_eq, BAvx2.ln_eq] at h
  have hf : lane 64 (and flag (mm256_set_epi64x (BitVec.allOnes 64) 0 0 0)) i.val = if i.val = 3 then lane 64 flag i.val else 0 := by
    refine (lane_mask flag _ i).trans ?_
    rw [BitVec.and_allOnes]
  rw [lane_zero, hf] at h
  rw [← h]
  have h5 : BAvx2.impl.xor (BAvx2.impl.set1 (IV .b)[5]) 0 = mm256_set1_epi64x blake2b_IV[5] := by
    show mm256_set1_epi64x _ ^^^ 0 = _
    exact BitVec.xor_zero
  rw [h5]
  rfl

/-- The states of the lanes, as halves. -/
theorem unpack_eq (v : Vector M256 8) : ∀ i : Fin 4, let u := unpackStateV4 v
    (#v[(u[0], u[1]), (u[2], u[3]), (u[4], u[5]), (u[6], u[7])] : Vector (M256 × M256) 4)[i] = regs (v.map (BAvx2.impl.ln i)) := by
  have e : unpackStateV4 v = #v[(BAvx2.transposeVecs v[0] v[1] v[2] v[3])[0], (BAvx2.transposeVecs v[4] v[5] v[6] v[7])[0],
      (BAvx2.transposeVecs v[0] v[1] v[2] v[3])[1], (BAvx2.transposeVecs v[4] v[5] v[6] v[7])[1],
      (BAvx2.transposeVecs v[0] v[1] v[2] v[3])[2], (BAvx2.transposeVecs v[4] v[5] v[6] v[7])[2],
      (BAvx2.transposeVecs v[0] v[1] v[2] v[3])[3], (BAvx2.transposeVecs v[4] v[5] v[6] v[7])[3]] := rfl
  rw [e, BAvx2.transposeVecs_lanes, BAvx2.transposeVecs_lanes]
  intro i
  simp only [regs, Vector.getElem_map, BAvx2.ln_eq]
  match i with
  | ⟨0, _⟩ => rfl
  | ⟨1, _⟩ => rfl
  | ⟨2, _⟩ => rfl
  | ⟨3, _⟩ => rfl

end Blake2.SnevesBp
