import Verif.Model.Api
/-!
# Model of the builder calls as updates in place

A builder method takes `&mut self` and may panic. A caller who catches the panic still has the `Params`, as the method left
it. In `Verif/Model/Lib.lean` and `Verif/Model/Par.lean` a panic leaves nothing; here each method is written as a sequence of
updates of a `Params` in memory, statement by statement, and a panic leaves what the statements before it did.

Line numbers are of blake2b/src/lib.rs; those of blake2s/src/lib.rs are in parentheses.
-/
namespace Blake2

/-- Code that updates a value of type `σ` in place, and may fault on the way. Not in /repo: Rust's `&mut self`. -/
abbrev InPlace (σ : Type) := σ → Res Unit × σ

/-- A sequence of statements: it ends at the first fault. Not in /repo: Rust's `;`. -/
def InPlace.block {σ : Type} : List (InPlace σ) → InPlace σ
  | [], x => (.ok (), x)
  | m :: ms, x =>
    match m x with
    | (.ok (), y) => block ms y
    | (.error e, y) => (.error e, y)

/-- An assertion or a check. Used at lib.rs 239, 252, 263, 273, 321 (230, 243, 254, 264, 298, 313). -/
def InPlace.check {σ : Type} (r : Res Unit) : InPlace σ := fun x => (r, x)

/-- An assignment to a field. Used at lib.rs 244-324 (235-316). -/
def InPlace.assign {σ : Type} (f : σ → σ) : InPlace σ := fun x => (.ok (), f x)

/-- `self.field[..src.len()].copy_from_slice(src)`: the slice operation may panic, and then writes nothing. Used at
lib.rs 255, 265, 279 (246, 256, 270). -/
def InPlace.copy {σ : Type} (get : σ → List Byte) (set : σ → List Byte → σ) (src : List Byte) : InPlace σ := fun x =>
  match copyRange (get x) 0 src.length src with
  | .ok y => (.ok (), set x y)
  | .error e => (.error e, x)

/-- What the value is afterwards, and whether the code ran to its end (`false`: it panicked, and the panic was caught).
Not in /repo: Rust's `std::panic::catch_unwind(|| ..).is_ok()`. -/
def InPlace.caught {σ : Type} (m : InPlace σ) (x : σ) : Bool × σ :=
  match m x with
  | (.ok (), y) => (true, y)
  | (.error _, y) => (false, y)

/-- A sequence of calls, each of whose panics is caught. Client side; models no line of /repo. -/
def InPlace.caughtAll {σ : Type} : List (InPlace σ) → σ → List Bool × σ
  | [], x => ([], x)
  | m :: ms, x =>
    let (b, y) := m.caught x
    let (bs, z) := caughtAll ms y
    (b :: bs, z)

/-- The builder methods of `Params`, one statement per line. lib.rs 238-339 (229-331). -/
def Spec.Setter.inPlace {a : Alg} : Spec.Setter → InPlace (Params a)
  | .hashLength n => InPlace.block [ -- 238-246 (229-237)
    InPlace.check (rassert (decide (1 ≤ n) && decide (n ≤ a.outbytes))),
    InPlace.assign fun p => { p with hashLength := BitVec.ofNat 8 n }]
  | .key k => InPlace.block [ -- 251-257 (242-248)
    InPlace.check (rassert (decide (k.length ≤ a.keybytes))),
    InPlace.assign fun p => { p with keyLength := BitVec.ofNat 8 k.length },
    InPlace.assign fun p => { p with keyBlock := List.replicate a.bb 0 },
    InPlace.copy (fun p => p.keyBlock) (fun p x => { p with keyBlock := x }) k]
  | .salt s => InPlace.block [ -- 262-267 (253-258)
    InPlace.check (rassert (decide (s.length ≤ a.saltbytes))),
    InPlace.assign fun p => { p with salt := List.replicate a.saltbytes 0 },
    InPlace.copy (fun p => p.salt) (fun p x => { p with salt := x }) s]
  | .personal s => InPlace.block [ -- 272-281 (263-272)
    InPlace.check (rassert (decide (s.length ≤ a.personalbytes))),
    InPlace.assign fun p => { p with personal := List.replicate a.personalbytes 0 },
    InPlace.copy (fun p => p.personal) (fun p x => { p with personal := x }) s]
  | .fanout n => InPlace.assign fun p => { p with fanout := n } -- 285-288 (276-279)
  | .maxDepth n => InPlace.assign fun p => { p with maxDepth := n } -- 292-295 (283-286)
  | .maxLeafLength n => InPlace.assign fun p => { p with maxLeafLength := n } -- 299-302 (290-293)
  | .nodeOffset n => InPlace.block [ -- 306-309 (297-301): only blake2s asserts
    InPlace.check (match a with
      | .b => .ok ()
      | .s => rassert (decide (n.toNat < 1 <<< 48))),
    InPlace.assign fun p => { p with nodeOffset := n }]
  | .nodeDepth n => InPlace.assign fun p => { p with nodeDepth := n } -- 313-316 (305-308)
  | .innerHashLength n => InPlace.block [ -- 320-324 (312-316)
    InPlace.check (rassert (decide (n ≤ a.outbytes))),
    InPlace.assign fun p => { p with innerHashLength := BitVec.ofNat 8 n }]
  | .lastNode b => InPlace.assign fun p => { p with lastNode := b } -- 332-339 (324-331)

/-- The builder methods of `blake2bp::Params` and `blake2sp::Params`. blake2b/src/blake2bp.rs 161-179,
blake2s/src/blake2sp.rs 169-187. -/
def Spec.PSetter.inPlace {a : Alg} : Spec.PSetter → InPlace (PParams a)
  | .hashLength n => InPlace.block [
    InPlace.check (rassert (decide (1 ≤ n) && decide (n ≤ a.outbytes))),
    InPlace.assign fun p => { p with hashLength := BitVec.ofNat 8 n }]
  | .key k => InPlace.block [
    InPlace.check (rassert (decide (k.length ≤ a.keybytes))),
    InPlace.assign fun p => { p with keyLength := BitVec.ofNat 8 k.length },
    InPlace.assign fun p => { p with key := List.replicate a.keybytes 0 },
    InPlace.copy (fun p => p.key) (fun p x => { p with key := x }) k]

end Blake2
