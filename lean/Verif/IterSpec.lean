import Verif.Basic
/-!
# What a client's iterator hands out

A small specification of the iterators `update_many` and `hash_many` are given. Rust promises nothing about an iterator
asked again after it has returned `None`: it may go on and return more elements.
-/
namespace Blake2

/-- Asked again and again from the state `s`, an iterator with this `next` hands out `xs`, then returns `None` for the
first time, and is then in the state `s'`. Nothing is said of what it would do if asked again. -/
inductive Yields {σ κ : Type} (next : σ → Option κ × σ) : σ → List κ → σ → Prop where
  | stop {s s'} : next s = (none, s') → Yields next s [] s'
  | item {s s₁ s' x xs} : next s = (some x, s₁) → Yields next s₁ xs s' → Yields next s (x :: xs) s'

end Blake2
