import Verif.Model.Tests
/-!
# Model of tests/fuzz_many.rs, with its generator of random parameters and inputs

The generator is a parameter: a type of states and a function that gives the next number and the next state. `rand_chacha::ChaChaRng` from
the seed 0 is one; nothing is assumed of it.
-/
namespace Blake2
variable {a : Alg} {σ : Type}

/-- `rng.gen_range(lo, hi)`, which panics if the range is empty. How the number is brought into the range is up to the crate `rand`;
here the generator's number is reduced. Used at tests/fuzz_many.rs 21, 23, 43, 46, 120, 122, 142, 145. -/
def genRange (next : σ → Nat × σ) (lo hi : Nat) (s : σ) : Res (Nat × σ) :=
  if lo < hi then .ok (lo + (next s).1 % (hi - lo), (next s).2) else .error .panic

/-- `rng.gen()` for a `bool`. Used at tests/fuzz_many.rs 22, 27, 121, 126. -/
def genBool (next : σ → Nat × σ) (s : σ) : Bool × σ := ((next s).1 % 2 == 1, (next s).2)

/-- `rng.fill_bytes` on a buffer of `n` bytes. Used at tests/fuzz_many.rs 37, 136. -/
def fillBytes (next : σ → Nat × σ) : Nat → σ → List Byte × σ
  | 0, s => ([], s)
  | n + 1, s => (BitVec.ofNat 8 (next s).1 :: (fillBytes next n (next s).2).1, (fillBytes next n (next s).2).2)

/-- `ArrayVec::push`, which panics if the vector is full. Used at tests/fuzz_many.rs 47, 53, 146, 152. -/
def arrayPush {α : Type} (cap : Nat) (v : List α) (x : α) : Res (List α) :=
  if v.length < cap then .ok (v ++ [x]) else .error .panic

/-- `random_params_blake2b` (`random_params_blake2s`). tests/fuzz_many.rs 15-29, 114-128. -/
def randomParams (a : Alg) (plat : Platform) (next : σ → Nat × σ) (s : σ) : Res (Params a × σ) := do
  let params := Params.new a plat
  let (n, s) ← genRange next 1 (a.outbytes + 1) s
  let params ← params.setHashLength n
  let (keyed, s) := genBool next s
  let (params, s) ← (if keyed then do
      let (len, s) ← genRange next 1 (a.keybytes + 1) s
      let key ← sliceTo (List.replicate a.keybytes 1) len
      let params ← params.setKey key
      .ok (params, s)
    else .ok (params, s) : Res (Params a × σ))
  let (last, s) := genBool next s
  let params ← params.setLastNode last
  .ok (params, s)

/-- The loop that fills the input buffers. tests/fuzz_many.rs 35-38, 134-137. -/
def fillBuffers (next : σ → Nat × σ) (len : Nat) : Nat → σ → List (List Byte) × σ
  | 0, s => ([], s)
  | k + 1, s =>
    ((fillBytes next len s).1 :: (fillBuffers next len k (fillBytes next len s).2).1, (fillBuffers next len k (fillBytes next len s).2).2)

/-- The loop that selects the inputs, `k` of which are left. tests/fuzz_many.rs 45-48, 144-147. -/
def pickInputs (next : σ → Nat × σ) (bufs : List (List Byte)) (maxLen maxN : Nat) : Nat → List (List Byte) → σ → Res (List (List Byte) × σ)
  | 0, inputs, s => .ok (inputs, s)
  | k + 1, inputs, s => do
    let (n, s) ← genRange next 0 (maxLen + 1) s
    let buf ← getState bufs inputs.length
    let input ← sliceTo buf n
    let inputs ← arrayPush maxN inputs input
    pickInputs next bufs maxLen maxN k inputs s

/-- The loop that draws the parameters, `k` of which are left. tests/fuzz_many.rs 52-54, 151-153. -/
def pickParams (a : Alg) (plat : Platform) (next : σ → Nat × σ) (maxN : Nat) : Nat → List (Params a) → σ → Res (List (Params a) × σ)
  | 0, params, s => .ok (params, s)
  | k + 1, params, s => do
    let (p, s) ← randomParams a plat next s
    let params ← arrayPush maxN params p
    pickParams a plat next maxN k params s

/-- The main loop of `with_random_inputs_blake2b` (`_blake2s`), `k` tests of which are left. tests/fuzz_many.rs 40-57, 139-156. -/
def randomTests (a : Alg) (plat : Platform) (next : σ → Nat × σ) (f : List (Params a) → List (List Byte) → Res Unit)
    (bufs : List (List Byte)) (maxLen maxN : Nat) : Nat → σ → Res Unit
  | 0, _ => .ok ()
  | k + 1, s => do
    let (n, s) ← genRange next 0 (maxN + 1) s
    let (inputs, s) ← pickInputs next bufs maxLen maxN n [] s
    let (params, s) ← pickParams a plat next maxN n [] s
    f params inputs
    randomTests a plat next f bufs maxLen maxN k s

/-- `with_random_inputs_blake2b` (`_blake2s`), with `BLAKE2B_MAX_LEN` and `BLAKE2B_MAX_N`. tests/fuzz_many.rs 12-13, 31-58, 111-112, 130-157. -/
def withRandomInputs (a : Alg) (e : Machine) (next : σ → Nat × σ) (s : σ) (numTests : Nat)
    (f : List (Params a) → List (List Byte) → Res Unit) : Res Unit :=
  let maxLen := 3 * a.bb
  let maxN := 2 * maxDegreeOn a e.x86
  let (bufs, s) := fillBuffers next maxLen maxN s
  randomTests a (detect e) next f bufs maxLen maxN numTests s

/-- `NUM_TESTS`. tests/fuzz_many.rs 7-10. -/
def NUM_TESTS (dbg : Bool) : Nat := if dbg then 1000 else 100000

/-- `fuzz_blake2b_hash_many` (`fuzz_blake2s_hash_many`), from any state of any generator. tests/fuzz_many.rs 60-81, 159-180. -/
def fuzzHashManyTest (a : Alg) (e : Machine) (dbg : Bool) (next : σ → Nat × σ) (s : σ) : Res Unit :=
  withRandomInputs a e next s (NUM_TESTS dbg) (fuzzHashMany dbg)

/-- `fuzz_blake2b_update_many` (`fuzz_blake2s_update_many`), from any state of any generator. tests/fuzz_many.rs 83-109, 182-208. -/
def fuzzUpdateManyTest (a : Alg) (e : Machine) (dbg : Bool) (next : σ → Nat × σ) (s : σ) : Res Unit :=
  withRandomInputs a e next s (NUM_TESTS dbg) (fuzzUpdateMany dbg)

end Blake2
