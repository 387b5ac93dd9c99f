import Verif.Model.DomainUtil
import Mathlib.Analysis.Calculus.Deriv.Basic
import Mathlib.Analysis.SpecialFunctions.Pow.Real

/-!
# Model of `problems/boundary.py`

`sympy.diff(e, th)` followed by `lambdify` is `deriv`; substitution of parameters is instantiation.
A boundary is given by its radius function `r` (the lambdified `r_expr`).
-/

namespace Pot
open Real

/-- problems/boundary.py:51 `d_r_th` -/
noncomputable def dRth (r : ℝ → ℝ) : ℝ → ℝ := deriv r
/-- problems/boundary.py:52 and 95 `d2_r_th` -/
noncomputable def d2Rth (r : ℝ → ℝ) : ℝ → ℝ := deriv (dRth r)
/-- problems/boundary.py:54, 56 `d_x_th` -/
noncomputable def dXth (r : ℝ → ℝ) : ℝ → ℝ := deriv fun th => r th * cos th
/-- problems/boundary.py:55, 57 `d_y_th` -/
noncomputable def dYth (r : ℝ → ℝ) : ℝ → ℝ := deriv fun th => r th * sin th

/-- problems/boundary.py:68 `d_s_th` -/
noncomputable def dSth (r : ℝ → ℝ) : ℝ → ℝ := fun th => √(r th ^ 2 + dRth r th ^ 2)
/-- problems/boundary.py:69 `d2_s_th` -/
noncomputable def d2Sth (r : ℝ → ℝ) : ℝ → ℝ := deriv (dSth r)
/-- problems/boundary.py:70 `d3_s_th` -/
noncomputable def d3Sth (r : ℝ → ℝ) : ℝ → ℝ := deriv (d2Sth r)
/-- problems/boundary.py:71 `d4_s_th` -/
noncomputable def d4Sth (r : ℝ → ℝ) : ℝ → ℝ := deriv (d3Sth r)

/-- problems/boundary.py:75 `d_th_s` -/
noncomputable def dThs (r : ℝ → ℝ) : ℝ → ℝ := fun th => 1 / dSth r th
/-- problems/boundary.py:76 `d2_th_s` -/
noncomputable def d2Ths (r : ℝ → ℝ) : ℝ → ℝ := fun th => -d2Sth r th * dThs r th ^ 3
/-- problems/boundary.py:77-79 `d3_th_s` -/
noncomputable def d3Ths (r : ℝ → ℝ) : ℝ → ℝ := fun th =>
  -d3Sth r th * dThs r th ^ 4 - 3 * d2Sth r th * d2Ths r th * dThs r th ^ 2
/-- problems/boundary.py:80-87 `d4_th_s` -/
noncomputable def d4Ths (r : ℝ → ℝ) : ℝ → ℝ := fun th =>
  -d4Sth r th * dThs r th ^ 5 -
    4 * d3Sth r th * dThs r th ^ 3 * d2Ths r th -
    3 * (
      (d3Sth r th * dThs r th * d2Ths r th + d2Sth r th * d3Ths r th) *
      dThs r th ^ 2 +
      2 * d2Sth r th * d2Ths r th ^ 2 * dThs r th)

/-- problems/boundary.py:100 `curv`; `(…)**(3/2)` is a real power. -/
noncomputable def curvTh (r : ℝ → ℝ) : ℝ → ℝ := fun th =>
  -(r th ^ 2 + 2 * dRth r th ^ 2 - r th * d2Rth r th) / (r th ^ 2 + dRth r th ^ 2) ^ ((3 : ℝ) / 2)
/-- problems/boundary.py:102 `d_curv_th` -/
noncomputable def dCurvTh (r : ℝ → ℝ) : ℝ → ℝ := deriv (curvTh r)
/-- problems/boundary.py:103 `d2_curv_th` -/
noncomputable def d2CurvTh (r : ℝ → ℝ) : ℝ → ℝ := deriv (dCurvTh r)

/-- problems/boundary.py:109-111 `eval_tangent` (`np.linalg.norm` is the Euclidean norm) -/
noncomputable def evalTangent (r : ℝ → ℝ) (th : ℝ) : ℝ × ℝ :=
  let tx := dXth r th
  let ty := dYth r th
  let nrm := √(tx ^ 2 + ty ^ 2)
  (tx / nrm, ty / nrm)

/-- problems/boundary.py:113-115 `eval_normal` -/
noncomputable def evalNormal (r : ℝ → ℝ) (th : ℝ) : ℝ × ℝ :=
  let t := evalTangent r th
  (t.2, -t.1)

/-- problems/boundary.py:126-136 `eval_dist_deriv` -/
noncomputable def evalDistDeriv (r : ℝ → ℝ) (x1 y1 th : ℝ) : ℝ :=
  let rr := r th
  let dr := dRth r th
  let x0 := rr * cos th
  let y0 := rr * sin th
  (x1 - x0) * (-dr * cos th + rr * sin th) + (y1 - y0) * (-dr * sin th - rr * cos th)

/-- `scipy.optimize.brentq` as an oracle: `none` is the ValueError raised when the end values have the
same sign. -/
abbrev Brentq := (ℝ → ℝ) → ℝ → ℝ → Option ℝ

/-- what is assumed of `brentq` (exact root instead of tolerance `xtol`): it fails exactly when the two end
values have the same strict sign, and otherwise returns a root in the interval, for continuous functions. -/
structure BrentqSpec (b : Brentq) : Prop where
  fails : ∀ f lo hi, lo ≤ hi → (b f lo hi = none ↔ 0 < f lo * f hi)
  root : ∀ f lo hi t, lo ≤ hi → ContinuousOn f (Set.Icc lo hi) → b f lo hi = some t →
    lo ≤ t ∧ t ≤ hi ∧ f t = 0

/-- problems/boundary.py:139-144, the search interval, lower end -/
noncomputable def searchLo (a th1 : ℝ) : ℝ :=
  let lbound := th1 - π / 7
  if lbound < a / 2 then a / 2 else lbound
/-- problems/boundary.py:139, 146-148, upper end -/
noncomputable def searchHi (a th1 : ℝ) : ℝ :=
  let ubound := th1 + π / 7
  if ubound > 2 * π + a / 2 then 2 * π + a / 2 else ubound

/-- problems/boundary.py:117-169 `get_boundary_coord`. -/
noncomputable def getBoundaryCoord (brentq : Brentq) (a : ℝ) (r : ℝ → ℝ) (r1 th1 : ℝ) :
    Option (ℝ × ℝ) :=
  let x1 := r1 * cos th1
  let y1 := r1 * sin th1
  match brentq (evalDistDeriv r x1 y1) (searchLo a th1) (searchHi a th1) with
  | none => none
  | some th0 =>
    let rr := r th0
    let x0 := rr * cos th0
    let y0 := rr * sin th0
    let n := √((x1 - x0) ^ 2 + (y1 - y0) ^ 2)
    let normal := evalNormal r th0
    let n := if normal.1 * (x1 - x0) + normal.2 * (y1 - y0) < 0 then -n else n
    some (n, th0)

/-- the parameter `nu` of problems/boundary.py:24 -/
noncomputable def bNu (a : ℝ) : ℝ := π / (2 * π - a)
/-- problems/boundary.py:171-174 `Arc` -/
noncomputable def arcR (R : ℝ) : ℝ → ℝ := fun _ => R
/-- problems/boundary.py:176-179 `OuterSine` -/
noncomputable def outerSineR (R bet a : ℝ) : ℝ → ℝ := fun th => R + bet * sin (bNu a * (th - a))
/-- problems/boundary.py:181-184 `InnerSine` -/
noncomputable def innerSineR (R bet a : ℝ) : ℝ → ℝ := fun th => R - bet * sin (bNu a * (th - a))
/-- problems/boundary.py:186-189 `Sine7` -/
noncomputable def sine7R (R bet a : ℝ) : ℝ → ℝ := fun th => R + bet * sin (7 * bNu a * (th - a))
/-- problems/boundary.py:192 `cubic_C` -/
noncomputable def cubicC : ℝ := (91 * √91 - 136) * π ^ 3 / 2916
/-- problems/boundary.py:194-199 `Cubic` -/
noncomputable def cubicR (R bet a : ℝ) : ℝ → ℝ := fun th =>
  R + bet / cubicC * (th - a) * (th - π) * (th - 2 * π)

end Pot
