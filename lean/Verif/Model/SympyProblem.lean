import Verif.Model.DomainUtil
import Verif.Model.Inhomo
import Mathlib.Analysis.Calculus.Deriv.Basic

/-!
# Model of `problems/sympy_problem.py`

The SymPy expression `f` with the parameters substituted is the function `f r th` of its values; `diff` is `deriv`,
`lambdify` is evaluation.  Division by `r = 0` gives nan (NumPy).
-/

namespace Pot
open Real Classical

/-- problems/sympy_problem.py:60-61 `eval_d_f_r` -/
noncomputable def spDFr (f : ℝ → ℝ → ℂ) (r th : ℝ) : ℂ := deriv (fun ρ => f ρ th) r

/-- problems/sympy_problem.py:63-64 `eval_d2_f_r` -/
noncomputable def spD2Fr (f : ℝ → ℝ → ℂ) (r th : ℝ) : ℂ := deriv (fun ρ => spDFr f ρ th) r

/-- problems/sympy_problem.py:66-67 `eval_d_f_th` -/
noncomputable def spDFth (f : ℝ → ℝ → ℂ) (r th : ℝ) : ℂ := deriv (fun t => f r t) th

/-- problems/sympy_problem.py:69-70 `eval_d2_f_th` -/
noncomputable def spD2Fth (f : ℝ → ℝ → ℂ) (r th : ℝ) : ℂ := deriv (fun t => spDFth f r t) th

/-- problems/sympy_problem.py:72-73 `eval_d2_f_r_th` -/
noncomputable def spD2Frth (f : ℝ → ℝ → ℂ) (r th : ℝ) : ℂ := deriv (fun t => spDFr f r t) th

/-- problems/sympy_problem.py:103-110 `eval_grad_f_polar` -/
noncomputable def spGradPolar (f : ℝ → ℝ → ℂ) (r th : ℝ) : Py (ℂ × ℂ) :=
  if r = 0 then throw .nanValue
  else
    let dFr := spDFr f r th
    let dFth := spDFth f r th
    let dFx := dFr * cos th - dFth * sin th / r
    let dFy := dFr * sin th + dFth * cos th / r
    pure (dFx, dFy)

/-- problems/sympy_problem.py:96-101 `eval_grad_f` -/
noncomputable def spGrad (f : ℝ → ℝ → ℂ) (x y : ℝ) : Py (ℂ × ℂ) := spGradPolar f (cartToPolar x y).1 (cartToPolar x y).2

/-- problems/sympy_problem.py:119-155 `eval_hessian_f_polar` -/
noncomputable def spHessPolar (f : ℝ → ℝ → ℂ) (r th : ℝ) : Py ((ℂ × ℂ) × (ℂ × ℂ)) :=
  if r = 0 then throw .nanValue
  else
    let dFr := spDFr f r th
    let dFth := spDFth f r th
    let d2Fr := spD2Fr f r th
    let d2Frth := spD2Frth f r th
    let d2Fth := spD2Fth f r th
    let dFxR := d2Fr * cos th + d2Frth * (-sin th / r) + dFth * sin th / r ^ 2
    let dFxTh := d2Frth * cos th + dFr * (-sin th) + d2Fth * (-sin th / r) + dFth * (-cos th / r)
    let d2Fx := dFxR * cos th + dFxTh * (-sin th / r)
    let d2Fxy := dFxR * sin th + dFxTh * cos th / r
    let dFyR := d2Fr * sin th + d2Frth * cos th / r + dFth * (-cos th / r ^ 2)
    let dFyTh := d2Frth * sin th + dFr * cos th + d2Fth * cos th / r + dFth * (-sin th / r)
    let d2Fy := dFyR * sin th + dFyTh * cos th / r
    pure ((d2Fx, d2Fxy), (d2Fxy, d2Fy))

/-- problems/sympy_problem.py:112-117 `eval_hessian_f` -/
noncomputable def spHess (f : ℝ → ℝ → ℂ) (x y : ℝ) : Py ((ℂ × ℂ) × (ℂ × ℂ)) :=
  spHessPolar f (cartToPolar x y).1 (cartToPolar x y).2

/-- problems/sympy_problem.py:75-94 `eval_f_polar`.  `self.eval_f(-h, 0)` (problems/problem.py:32-36) calls `eval_f_polar` at
the polar coordinates of `(-h, 0)`, where the radius is not zero unless `AD_len` is; in that case the gradient is nan. -/
noncomputable def spFPolar (AD : ℝ) (f : ℝ → ℝ → ℂ) (r th : ℝ) : Py ℂ :=
  if r = 0 then do
    let h := AD / 10000
    let hess ← spHess f (-h) 0
    let grad0 ← spGrad f (-h) 0
    let c := hdot hess (1, 0)
    let grad := (grad0.1 + h * c.1, grad0.2 + h * c.2)
    let f0 := f (cartToPolar (-h) 0).1 (cartToPolar (-h) 0).2
    let f1 := f0 + h * dot2 grad (1, 0)
    let f2 := f1 + 1 / 2 * (h : ℂ) ^ 2 * dot2 (hdot hess (1, 0)) (1, 0)
    return f2
  else pure (f r th)

/-- problems/problem.py:32-36 `eval_f` of an inhomogeneous SymPy problem -/
noncomputable def spF (AD : ℝ) (f : ℝ → ℝ → ℂ) (x y : ℝ) : Py ℂ := spFPolar AD f (cartToPolar x y).1 (cartToPolar x y).2

/-- the value of a computation that cannot fail for `AD_len ≠ 0` -/
def pyGet (x : Py ℂ) : ℂ := match x with
  | .ok v => v
  | .error _ => 0

/-- the source methods of an inhomogeneous problem derived from `SympyProblem` as the solver sees them -/
noncomputable def spSource (AD : ℝ) (f : ℝ → ℝ → ℂ) : Source where
  homogeneous := false
  f := fun x y => pyGet (spF AD f x y)
  grad := spGrad f
  hess := spHess f
  fPolar := fun r th => pyGet (spFPolar AD f r th)
  gradPolar := spGradPolar f
  hessPolar := spHessPolar f
  dFth := spDFth f
  d2Fth := spD2Fth f
  dFr := spDFr f
  d2Fr := spD2Fr f
  d2Frth := spD2Frth f

end Pot
