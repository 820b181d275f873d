import Mathlib.Data.Fin.VecNotation
import Verif.Model.Iter

/-! # Specification: channels and iterators -/

namespace D10.Spec

/-- Four channels that can be read and written: writing one changes what is read from it to the given
value and nothing else, and a colour has nothing but its channels. -/
structure Channels {C F : Type} (read : Fin 4 → C → F) (write : Fin 4 → C → F → C) : Prop where
  written : ∀ i c v, read i (write i c v) = v
  others : ∀ i j c v, i ≠ j → read j (write i c v) = read j c
  complete : ∀ c d, (∀ i, read i c = read i d) → c = d

/-- The state of an iterator after `k` calls of `next`. -/
def after {σ α : Type} (it : Iter σ α) (start : σ) : Nat → σ
  | 0 => start
  | k + 1 => (it.next (after it start k)).2

/-- What the call number `k` (from zero) of `next` returns. -/
def item {σ α : Type} (it : Iter σ α) (start : σ) (k : Nat) : Option α := (it.next (after it start k)).1

/-- The iterator `it'` returns `f` of what `it` returns, call by call, ends where `it` ends and announces
the same number of items at any time. -/
structure Maps {σ α β : Type} (it : Iter σ α) (it' : Iter σ β) (f : α → β) : Prop where
  items : ∀ start k, item it' start k = (item it start k).map f
  hints : ∀ start k, it'.size_hint (after it' start k) = it.size_hint (after it start k)

/-- The iterator over a list. -/
def ofList {α : Type} : Iter (List α) α where
  next
    | [] => (none, [])
    | a :: l => (some a, l)
  size_hint l := (l.length, some l.length)

end D10.Spec
