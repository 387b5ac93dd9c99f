import Mathlib.Analysis.SpecialFunctions.Complex.Arg
import Verif.Model.Py

/-!
# Model of `domain_util.py`
Floats are exact reals.  `None` results are `Option.none`.
-/

namespace Pot
open Real

/-- `math.hypot(x, y)` (library function used in domain_util.py:8). -/
noncomputable def hypot (x y : ℝ) : ℝ := √(x ^ 2 + y ^ 2)

/-- `math.atan2(y, x)` (library function used in domain_util.py:8): the argument in `(-π, π]`,
`0` at the origin.  Signed zeros are not modelled. -/
noncomputable def atan2 (y x : ℝ) : ℝ := Complex.arg ⟨x, y⟩

/-- domain_util.py:4-13 `cart_to_polar`. -/
noncomputable def cartToPolar (x y : ℝ) : ℝ × ℝ :=
  let r := hypot x y
  let th := atan2 y x
  if th ≤ 0 then (r, th + 2 * π) else (r, th)

/-- domain_util.py:15-33 `wrap_func`. -/
noncomputable def wrapFunc (a arg : ℝ) (sid : ℕ) : ℝ × ℕ :=
  if sid = 0 ∧ arg < a / 2 then (arg + 2 * π, sid)
  else if sid = 1 ∧ arg < 0 then (-arg, 2)
  else if sid = 2 ∧ arg < 0 then (-arg, 1)
  else (arg, sid)

/-- domain_util.py:36-51 `arg_to_polar_abs`; `evalR` is `boundary.eval_r`.
Falls off the end (returns `None`) for other `sid`. -/
noncomputable def argToPolarAbs (evalR : ℝ → ℝ) (a arg : ℝ) (sid : ℕ) : Option (ℝ × ℝ) :=
  if sid = 0 then some (evalR arg, arg)
  else if sid = 1 then
    if arg ≥ 0 then some (arg, 2 * π) else some (-arg, π)
  else if sid = 2 then
    if arg ≥ 0 then some (arg, a) else some (-arg, π + a)
  else none

/-- domain_util.py:53-62 `arg_to_polar`. -/
noncomputable def argToPolar (evalR : ℝ → ℝ) (a arg : ℝ) (sid : ℕ) : Option (ℝ × ℝ) :=
  if sid = 0 then some (evalR arg, arg)
  else if sid = 1 then some (arg, 2 * π)
  else if sid = 2 then some (arg, a)
  else none

/-- domain_util.py:64-76 `get_sid`; falls off the end (returns `None`) inside the wedge. -/
noncomputable def getSid (a th : ℝ) : Option ℕ :=
  let tol : ℝ := 1 / 10 ^ 12
  if th ≥ 2 * π then some 1
  else if th > a then some 0
  else if |th - a| < tol then some 2
  else none

end Pot
