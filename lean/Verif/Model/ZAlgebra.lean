import Mathlib.Analysis.Calculus.Deriv.Basic
import Mathlib.Analysis.SpecialFunctions.Gamma.Basic
import Mathlib.Analysis.SpecialFunctions.Pow.Real
import Mathlib.Analysis.SpecialFunctions.Trigonometric.Basic

/-!
# Model of the symbolic part of the z-method

`ZMethod.do_algebra` (ps/zmethod.py) and the expressions of problems/sing_ihz.py.  A SymPy expression in `r` and `th` is the
function `ℝ → ℝ → ℝ` of its values, `sympy.diff` is `deriv`, `subs` is evaluation.  The numbers of these problems are real.
-/

namespace Pot
open Real

/-- ps/zmethod.py:70-72 `apply_helmholtz_op` -/
noncomputable def helmOp (k : ℝ) (u : ℝ → ℝ → ℝ) : ℝ → ℝ → ℝ := fun r th =>
  let dUr : ℝ → ℝ := deriv fun r => u r th
  deriv dUr r + dUr r / r + deriv (deriv (u r)) th / r ^ 2 + k ^ 2 * u r th

/-- ps/zmethod.py:79 the polynomial `p` -/
def pPoly (x : ℝ) : ℝ := 10 * x ^ 3 - 15 * x ^ 4 + 6 * x ^ 5

/-- ps/zmethod.py:75 `f0` -/
noncomputable def zF0 (k : ℝ) (g : ℝ → ℝ → ℝ) : ℝ → ℝ → ℝ := fun r th => -helmOp k g r th

/-- ps/zmethod.py:81-82 `q1` -/
noncomputable def zQ1 (k a : ℝ) (g : ℝ → ℝ → ℝ) : ℝ → ℝ → ℝ := fun r th =>
  r ^ 2 * 1 / 2 * (th - a) ^ 2 * zF0 k g r a * pPoly ((a - th) / (2 * π - a) + 1)

/-- ps/zmethod.py:84-85 `q2` -/
noncomputable def zQ2 (k a : ℝ) (g : ℝ → ℝ → ℝ) : ℝ → ℝ → ℝ := fun r th =>
  r ^ 2 * 1 / 2 * (th - 2 * π) ^ 2 * zF0 k g r (2 * π) * pPoly ((th - 2 * π) / (2 * π - a) + 1)

/-- ps/zmethod.py:87 `q` -/
noncomputable def zQ (k a : ℝ) (g : ℝ → ℝ → ℝ) : ℝ → ℝ → ℝ := fun r th => zQ1 k a g r th + zQ2 k a g r th

/-- ps/zmethod.py:88 `f1` -/
noncomputable def zF1 (k a : ℝ) (g : ℝ → ℝ → ℝ) : ℝ → ℝ → ℝ := fun r th => zF0 k g r th - helmOp k (zQ k a g) r th

/-- ps/zmethod.py:74 `f` (`f_expr`) -/
noncomputable def zF (k : ℝ) (vAsympt : ℝ → ℝ → ℝ) : ℝ → ℝ → ℝ := fun r th => -helmOp k vAsympt r th

/-- ps/zmethod.py:96 `initial_func` -/
noncomputable def zInitial (k a : ℝ) (g vSeries : ℝ → ℝ → ℝ) : ℝ → ℝ → ℝ := fun r th =>
  vSeries r th - (g r th + zQ k a g r th)

/-- ps/zmethod.py:97 `d_initial_func` -/
noncomputable def zDInitial (k a : ℝ) (g vSeries : ℝ → ℝ → ℝ) : ℝ → ℝ → ℝ := fun r th =>
  deriv (fun r => zInitial k a g vSeries r th) r

open Classical in
/-- ps/zmethod.py:101-114 `my_lambdify`: zero at `r = 0` -/
noncomputable def myLambdify (e : ℝ → ℝ → ℝ) : ℝ → ℝ → ℝ := fun r th => if r = 0 then 0 else e r th

/-- problems/sing_ihz.py:52-53, the second case of the `Piecewise` -/
def taperPoly (x : ℝ) : ℝ :=
  x ^ 7 * (924 * x ^ 6 - 6006 * x ^ 5 + 16380 * x ^ 4 - 24024 * x ^ 3 + 20020 * x ^ 2 - 9009 * x + 1716)

/-- problems/sing_ihz.py:52-55, the `Piecewise` -/
noncomputable def taperP (x : ℝ) : ℝ := if x < 0 then 0 else if x ≤ 1 then taperPoly x else 1

/-- problems/sing_ihz.py:45-61 `get_tapering_func(R)`, with `r1 = ZMethod.R0` -/
noncomputable def taper (R0 R : ℝ) (r : ℝ) : ℝ := taperP (1 - (r - R0) / (R - R0))

/-- problems/sing_ihz.py:79-90 `get_v_asympt0` -/
noncomputable def vAsympt0 (K : ℕ) (k nu : ℝ) (nterms : ℕ) (r : ℝ) : ℝ :=
  ((List.range nterms).foldl (fun acc (l : ℕ) =>
    acc + (-1) ^ l / ((l.factorial : ℝ) * Gamma ((K + 1 / 2) * nu + l + 1)) * (k * r / 2) ^ (2 * l)) 0)
  * (k * r / 2) ^ ((K + 1 / 2) * nu)

/-- problems/sing_ihz.py:111-113 `v_asympt` of `IH_Bessel` (`_nterms = 2`) -/
noncomputable def ihVAsympt (K : ℕ) (k a nu R0 R : ℝ) : ℝ → ℝ → ℝ := fun r th =>
  vAsympt0 K k nu 2 r * sin ((K + 1 / 2) * nu * (th - a)) * taper R0 R r

/-- problems/sing_ihz.py:115 `v_series` of `IH_Bessel` -/
noncomputable def ihVSeries (K : ℕ) (k a nu : ℝ) : ℝ → ℝ → ℝ := fun r th =>
  vAsympt0 K k nu 10 r * sin ((K + 1 / 2) * nu * (th - a))

end Pot
