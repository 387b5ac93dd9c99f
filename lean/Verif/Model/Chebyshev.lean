import Verif.Model.Py
import Mathlib.Analysis.SpecialFunctions.Pow.Real
import Mathlib.Analysis.SpecialFunctions.Trigonometric.Inverse

/-!
# Model of `chebyshev.py`

`t` is a real number; NumPy's `arccos` is only used on `[-1, 1]`, where it is `Real.arccos` (outside that
interval NumPy returns nan and Lean's function is constant; `C38` shows the solver stays inside).
`x**(3/2)` is the real power.  Division by zero does not raise in NumPy; the theorems exclude it.
-/

namespace Pot
open Real

/-- chebyshev.py:9-11 `eval_T` -/
noncomputable def evalT (J : ℕ) (t : ℝ) : ℝ := cos (J * arccos t)

/-- chebyshev.py:13-15 `eval_d_T_t` -/
noncomputable def evalDT (J : ℕ) (t : ℝ) : ℝ := J * sin (J * arccos t) / √(-t ^ 2 + 1)

/-- chebyshev.py:17-18 `eval_d2_T_t` -/
noncomputable def evalD2T (J : ℕ) (t : ℝ) : ℝ :=
  J * (J * cos (J * arccos t) / (t ^ 2 - 1) + t * sin (J * arccos t) / (-t ^ 2 + 1) ^ (3 / 2 : ℝ))

/-- chebyshev.py:20-21 `eval_d3_T_t` -/
noncomputable def evalD3T (J : ℕ) (t : ℝ) : ℝ :=
  J * (-(J : ℝ) ^ 2 * sin (J * arccos t) / (-t ^ 2 + 1) ^ (3 / 2 : ℝ)
    - 3 * J * t * cos (J * arccos t) / (t ^ 2 - 1) ^ 2
    + 3 * t ^ 2 * sin (J * arccos t) / (-t ^ 2 + 1) ^ (5 / 2 : ℝ)
    + sin (J * arccos t) / (-t ^ 2 + 1) ^ (3 / 2 : ℝ))

/-- chebyshev.py:23-24 `eval_d4_T_t` -/
noncomputable def evalD4T (J : ℕ) (t : ℝ) : ℝ :=
  J * ((J : ℝ) ^ 3 * cos (J * arccos t) / (t ^ 2 - 1) ^ 2
    - 4 * (J : ℝ) ^ 2 * t * sin (J * arccos t) / (√(-t ^ 2 + 1) * (t ^ 2 - 1) ^ 2)
    + (J : ℝ) ^ 2 * t * sin (J * arccos t) / ((-t ^ 2 + 1) ^ (3 / 2 : ℝ) * (t ^ 2 - 1))
    - (J : ℝ) ^ 2 * t * sin (J * arccos t) / (-t ^ 2 + 1) ^ (5 / 2 : ℝ)
    + 15 * J * t ^ 2 * cos (J * arccos t) / (t ^ 2 - 1) ^ 3
    - 4 * J * cos (J * arccos t) / (t ^ 2 - 1) ^ 2
    + 15 * t ^ 3 * sin (J * arccos t) / (-t ^ 2 + 1) ^ (7 / 2 : ℝ)
    + 9 * t * sin (J * arccos t) / (-t ^ 2 + 1) ^ (5 / 2 : ℝ))

/-- chebyshev.py:26-27 `eval_d5_T_t` -/
noncomputable def evalD5T (J : ℕ) (t : ℝ) : ℝ :=
  J * ((J : ℝ) ^ 4 * sin (J * arccos t) / (-t ^ 2 + 1) ^ (5 / 2 : ℝ)
    - 10 * (J : ℝ) ^ 3 * t * cos (J * arccos t) / (t ^ 2 - 1) ^ 3
    - 45 * (J : ℝ) ^ 2 * t ^ 2 * sin (J * arccos t) / (-t ^ 2 + 1) ^ (7 / 2 : ℝ)
    - 10 * (J : ℝ) ^ 2 * sin (J * arccos t) / (-t ^ 2 + 1) ^ (5 / 2 : ℝ)
    - 105 * J * t ^ 3 * cos (J * arccos t) / (t ^ 2 - 1) ^ 4
    + 55 * J * t * cos (J * arccos t) / (t ^ 2 - 1) ^ 3
    + 105 * t ^ 4 * sin (J * arccos t) / (-t ^ 2 + 1) ^ (9 / 2 : ℝ)
    + 90 * t ^ 2 * sin (J * arccos t) / (-t ^ 2 + 1) ^ (7 / 2 : ℝ)
    + 9 * sin (J * arccos t) / (-t ^ 2 + 1) ^ (5 / 2 : ℝ))

/-- chebyshev.py:30-37 `eval_dn_T_t` (for the nonnegative orders the callers pass; `derivs[n]` raises
IndexError past the end of the tuple) -/
noncomputable def evalDnT (n J : ℕ) (t : ℝ) : Py ℝ :=
  match n with
  | 0 => pure (evalT J t)
  | 1 => pure (evalDT J t)
  | 2 => pure (evalD2T J t)
  | 3 => pure (evalD3T J t)
  | 4 => pure (evalD4T J t)
  | 5 => pure (evalD5T J t)
  | _ => throw .indexError

/-- chebyshev.py:39-41 `get_chebyshev_roots`; `range(J, 0, -1)` is `J, J-1, …, 1` -/
noncomputable def chebRoots (J : ℕ) : List ℝ :=
  (List.range J).map fun i : ℕ =>
    let l : ℝ := ((J - i : ℕ) : ℝ)
    cos (π / 2 * (2 * l - 1) / J)

end Pot
