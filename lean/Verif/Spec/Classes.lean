import Mathlib.Data.List.Basic

/-!
# What is expected of an order of resolution

`bases` gives the bases of every class, `mro` the order in which an attribute is looked for.
-/

namespace Spec

/-- `Ancestor bases c x`: the class `x` is `c`, or a base of `c`, or a base of a base of `c`, and so on. -/
inductive Ancestor (bases : String → Option (List String)) : String → String → Prop
  | refl (c : String) : Ancestor bases c c
  | step {c b x : String} {bs : List String} (h : bases c = some bs) (hb : b ∈ bs) (hx : Ancestor bases b x) : Ancestor bases c x

/-- The order `l` is right for the class `c`: it begins with `c`, has every class once, has exactly the ancestors, has the bases in the
order of the `class` statement, and has the ancestors of every ancestor in that one's own order. -/
structure GoodOrder (bases mro : String → Option (List String)) (c : String) (l : List String) : Prop where
  first : l.head? = some c
  once : l.Nodup
  all : ∀ x, x ∈ l ↔ Ancestor bases c x
  local_ : ∀ bs, bases c = some bs → bs.Sublist l
  inherited : ∀ x ∈ l, ∀ lx, mro x = some lx → lx.Sublist l

end Spec
