import Verif.Spec
/-!
# Specification: what a job starts from

What a job holds before it is run, and what someone who knows that, but not the key, can compute.
-/
namespace Blake2.Spec

/-- What a job holds before it is run: the initial chaining value, into which the key block has gone if there is a key. -/
def startWords (a : Alg) (c : Config) : Vector (Word a) 8 :=
  if c.key = [] then initH a c else F a (initH a c) (pad (bb a) c.key) (bb a) false false

/-- Eight words from their bytes (little endian). -/
def wordsOf (a : Alg) (bytes : List Byte) : Vector (Word a) 8 :=
  Vector.ofFn fun i => BitVec.ofNat a.w (leNat ((bytes.drop (i * a.wb)).take a.wb))

/-- RFC 3.3 from the second block on: process the blocks of `data`, one block having gone before, from the chaining value `h`. No
key is involved. -/
def resume (a : Alg) (h : Vector (Word a) 8) (data : List Byte) (lastNode : Bool) : Vector (Word a) 8 :=
  let dd := numBlocks a data.length
  let h := (List.range (dd - 1)).foldl (fun h i => F a h (dataBlock a data i) ((i + 2) * bb a) false false) h
  F a h (dataBlock a data (dd - 1)) (bb a + data.length) true lastNode

end Blake2.Spec
