import Verif.Model.Kat
import Verif.Proofs.FastEval
import Verif.Proofs.KernelRfl
import Verif.Properties.Vectors
/-!
# Evaluation of the test vectors by the kernel
-/
namespace Blake2.Kat
open Spec

noncomputable section

/-- `counting`, from `i`. -/
def fastCounting (n i : Nat) : List Byte := Nat.rec (fun _ => []) (fun _ ih i => BitVec.ofNat 8 i :: ih (Nat.succ i)) n i

/-- The output of `Spec.xof` in hexadecimal. -/
def fastXof (a : Alg) (key input : List Byte) (length : Nat) : List Char :=
  Fast.hashFull a { Config.default a with key := key, nodeOffset := xofField 0 length } input fun h =>
    (List.range ((length + maxOut a - 1) / maxOut a)).flatMap fun i =>
      Fast.force (min (maxOut a) (length - i * maxOut a)) fun n =>
        Fast.hashHex a (xofConfig a i n length) (Fast.bytes a h)

/-- The output of a vector in hexadecimal. -/
def fastOut (s : Suite) (keyLength i : Nat) : String :=
  match s with
  | .serial a => .ofList (Fast.hashHex a { Config.default a with key := fastCounting keyLength 0 } (fastCounting i 0))
  | .tree a => .ofList (Fast.hashPHex a (maxOut a) (fastCounting keyLength 0) (fastCounting i 0))
  | .xof a => .ofList (fastXof a (fastCounting keyLength 0) (fastCounting 256 0) (Nat.succ i))

/-- The outputs of the vectors number `i` to `i + n - 1` of a group. -/
def fastOuts (s : Suite) (keyLength i n : Nat) : List String :=
  Nat.rec (fun _ => []) (fun _ ih i => fastOut s keyLength i :: ih (Nat.succ i)) n i

theorem fastOuts_zero (s : Suite) (k i : Nat) : fastOuts s k i 0 = [] := rfl

theorem fastOuts_succ (s : Suite) (k i n : Nat) : fastOuts s k i (n + 1) = fastOut s k i :: fastOuts s k (i + 1) n := rfl

theorem fastOuts_append (s : Suite) (k i m n : Nat) : fastOuts s k i m ++ fastOuts s k (i + m) n = fastOuts s k i (m + n) := by
  induction m generalizing i with
  | zero => rw [fastOuts_zero, Nat.zero_add]; rfl
  | succ m ih => rw [Nat.add_right_comm m 1 n, fastOuts_succ, fastOuts_succ, ← ih, List.cons_append, Nat.add_assoc i 1 m, Nat.add_comm 1 m]

theorem fastOuts_eight (s : Suite) (k : Nat) :
    fastOuts s k 0 32 ++ fastOuts s k 32 32 ++ fastOuts s k 64 32 ++ fastOuts s k 96 32 ++ fastOuts s k 128 32 ++ fastOuts s k 160 32 ++
      fastOuts s k 192 32 ++ fastOuts s k 224 32 = fastOuts s k 0 256 := by
  have h := fun m => fastOuts_append s k 0 m 32
  simp only [Nat.zero_add] at h
  rw [h 32, h 64, h 96, h 128, h 160, h 192, h 224]

theorem fastOuts_getElem? (s : Suite) (k i n j : Nat) (h : j < n) : (fastOuts s k i n)[j]? = some (fastOut s k (i + j)) := by
  induction n generalizing i j with
  | zero => omega
  | succ n ih =>
    rw [fastOuts_succ]
    cases j with
    | zero => rfl
    | succ j => rw [List.getElem?_cons_succ, ih _ _ (by omega), Nat.add_assoc, Nat.add_comm 1 j]

theorem fastOuts_length (s : Suite) (k i n : Nat) : (fastOuts s k i n).length = n := by
  induction n generalizing i with
  | zero => rfl
  | succ n ih => rw [fastOuts_succ, List.length_cons, ih]

theorem fastCounting_eq (n i : Nat) : fastCounting n i = (List.range' i n).map (BitVec.ofNat 8) := by
  induction n generalizing i with
  | zero => rfl
  | succ n ih =>
    show BitVec.ofNat 8 i :: fastCounting n (i + 1) = _
    rw [ih, List.range'_succ, List.map_cons]

theorem counting_eq (n : Nat) : fastCounting n 0 = counting n := by
  rw [fastCounting_eq, counting, List.range_eq_range']

theorem fastXof_eq (a : Alg) (key input : List Byte) (length : Nat) : fastXof a key input length = hexOf (Spec.xof a key input length) := by
  unfold fastXof Fast.hashFull
  rw [Fast.node_eq, Fast.bytes_eq]
  unfold Spec.xof
  have fm : ∀ (l : List Nat) (f : Nat → List Byte), hexOf (l.flatMap f) = l.flatMap fun i => hexOf (f i) := by
    intro l f
    induction l with
    | nil => rfl
    | cons x l ih => rw [List.flatMap_cons, List.flatMap_cons, Fast.hexOf_append, ih]
  rw [fm]
  congr 1
  funext i
  rw [Fast.force_eq, ← Fast.hashHex_eq]
  congr 2
  unfold xofRoot Spec.hash Spec.hashFull
  generalize hp : Spec.process _ _ _ _ = p
  refine (List.take_of_length_le ?_).symm
  show _ ≤ maxOut a
  rw [← Fast.bytes_eq, Fast.bytes_length]
  exact Nat.le_refl _

theorem counting_length (n : Nat) : (counting n).length = n := by
  rw [counting, List.length_map, List.length_range]

theorem hexOf_length (l : List Byte) : (hexOf l).length = 2 * l.length := unhex_length (unhex_hexOf l)

/-- A group whose outputs were evaluated consists of right vectors. -/
theorem group_right (s : Suite) (keyLength : Nat) (outs : List String) (hk : keyLength ≤ maxOut s.alg)
    (h : outs = fastOuts s keyLength 0 256) : ∀ c ∈ group s keyLength outs, c.Right s := by
  intro c hc
  unfold group at hc
  rw [List.mem_map] at hc
  obtain ⟨⟨o, i⟩, hm, rfl⟩ := hc
  have hm := List.mem_zipIdx_iff_getElem?.1 hm
  have hi : i < 256 := by
    have := (List.getElem?_eq_some_iff.1 hm).1
    rwa [h, fastOuts_length] at this
  rw [h, fastOuts_getElem? _ _ _ _ _ hi, Nat.zero_add] at hm
  simp only [Option.some.injEq] at hm
  have key : ∃ out, s.output (o.toList.length / 2) (counting keyLength) (counting (inputLength s i)) = some out ∧ o.toList = hexOf out := by
    subst hm
    cases s with
    | serial a =>
      refine ⟨_, rfl, ?_⟩
      unfold fastOut
      simp only [String.toList_ofList]
      rw [← Fast.hashHex_eq, counting_eq, counting_eq]
      rfl
    | tree a =>
      refine ⟨_, rfl, ?_⟩
      unfold fastOut
      simp only [String.toList_ofList]
      rw [← Fast.hashPHex_eq, counting_eq, counting_eq]
      rfl
    | xof a =>
      have e : (fastOut (.xof a) keyLength i).toList = hexOf (Spec.xof a (counting keyLength) (counting 256) (i + 1)) := by
        unfold fastOut
        simp only [String.toList_ofList]
        rw [fastXof_eq, counting_eq, counting_eq]
      have hl : (fastOut (.xof a) keyLength i).toList.length / 2 = i + 1 := by
        rw [e, hexOf_length, xof_length]
        omega
      refine ⟨_, ?_, e⟩
      rw [hl]
      exact if_pos (by cases a <;> show i + 1 < 2 ^ _ <;> omega)
  obtain ⟨out, h1, h2⟩ := key
  exact ⟨counting keyLength, counting (inputLength s i), out, unhex_hexOf _, unhex_hexOf _, by rw [counting_length]; exact hk, h1, h2⟩

end
end Blake2.Kat
