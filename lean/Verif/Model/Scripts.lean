import Verif.Model.Py
import Mathlib.Analysis.Real.Pi.Bounds
import Mathlib.Analysis.SpecialFunctions.Pow.Real

/-!
# Model of `scripts/resonance.py`

The command line (the expression for the side `s`, whose default is `2*pi`) and the layout of the output are left out.
The exact square root replaces `np.sqrt`.
-/

namespace Pot
open Real

/-- Python's `range(lo, hi, 2)` -/
def rangeBy2 (lo hi : ℕ) : List ℕ := (List.range ((hi - lo + 1) / 2)).map fun i => lo + 2 * i

/-- scripts/resonance.py:24 -/
def aCap : ℕ := 10

/-- the pairs printed on the way, scripts/resonance.py:29-31 -/
def resonancePairs : List (ℕ × ℕ) :=
  (rangeBy2 1 aCap).flatMap fun a => (rangeBy2 a aCap).map fun b => (a, b)

/-- scripts/resonance.py:26-33 `bad_k2`.  Division by zero is a ZeroDivisionError for Python numbers, the side is one. -/
noncomputable def badK2 (s : ℝ) : Py (List ℝ) :=
  resonancePairs.mapM fun p =>
    if s = 0 then throw .zeroDivisionError else pure ((p.1 * π / s) ^ 2 + (p.2 * π / s) ^ 2)

/-- scripts/resonance.py:35-38: the values printed last -/
noncomputable def resonanceScript (s : ℝ) : Py (List ℝ) := do
  let l ← badK2 s
  return (l.mergeSort (fun x y => decide (x ≤ y))).map sqrt

end Pot
