import Mathlib.Data.Fin.Basic
import Mathlib.Data.Int.Notation
import Mathlib.Tactic.Common

/-!
# Python runtime fragments used by the model

Exceptions are values; list/array indexing has Python's negative wrap-around.
-/

namespace Pot

/-- The Python exceptions the modelled code can raise, plus `nanValue`: a NumPy floating-point division by
zero does not raise but yields nan; the model stops there instead of following the nan. -/
inductive PyErr
  | assertionError | indexError | keyError | typeError | valueError
  | attributeError | unboundLocalError | zeroDivisionError | recursionError | nanValue
  deriving DecidableEq, Repr

/-- A Python computation: a value or an exception. -/
abbrev Py (α : Type) := Except PyErr α

@[simp] theorem ok_bind {α β : Type} (a : α) (f : α → Py β) : ((Except.ok a : Py α) >>= f) = f a := rfl
@[simp] theorem error_bind {α β : Type} (e : PyErr) (f : α → Py β) :
    ((Except.error e : Py α) >>= f) = Except.error e := rfl
@[simp] theorem pure_eq_ok {α : Type} (a : α) : (pure a : Py α) = Except.ok a := rfl
@[simp] theorem throw_eq_error {α : Type} (e : PyErr) : (throw e : Py α) = Except.error e := rfl

/-- Python/NumPy indexing `arr[i]` on an axis of length `n`: indices `0..n-1` are themselves,
`-n..-1` wrap around, everything else raises `IndexError`.
(Used wherever the code indexes with a computed integer, e.g. ps/ps.py:146, 151, 160.) -/
def pyIdx (n : ℕ) (i : ℤ) : Py (Fin n) :=
  if h : 0 ≤ i ∧ i < n then .ok ⟨i.toNat, by omega⟩
  else if h : -(n : ℤ) ≤ i ∧ i < 0 then .ok ⟨(i + n).toNat, by omega⟩
  else .error .indexError

end Pot
