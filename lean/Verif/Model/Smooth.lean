import Verif.Model.Problem
import Verif.Model.SympyProblem
import Mathlib.Analysis.Complex.Exponential

/-!
# Model of `problems/smooth.py`

`get_n_basis` and the tables are in `Model/Problem.lean`.
-/

namespace Pot
open Real Classical

/-- problems/smooth.py:14 `k` -/
noncomputable def smoothK : ℝ := 27 / 4

/-- problems/smooth.py:26-31 `eval_bc`, with `eval_expected_polar` of problems/problem.py:26-30.  Unpacking the `None` of a segment
number other than 0, 1, 2 is a TypeError. -/
noncomputable def smoothEvalBc (u : ℝ → ℝ → ℂ) (evalR : ℝ → ℝ) (a arg : ℝ) (sid : ℕ) : Py ℂ :=
  match argToPolarAbs evalR a arg sid with
  | none => throw .typeError
  | some (r, th) => pure (u (r * cos th) (r * sin th))

/-- problems/smooth.py:33-52 `eval_d_u_outwards` -/
noncomputable def smoothDUOut (grad : ℝ → ℝ → Py (ℂ × ℂ)) (evalR : ℝ → ℝ) (a arg : ℝ) (sid : ℕ) : Py ℂ :=
  match argToPolarAbs evalR a arg sid with
  | none => throw .typeError
  | some (r, th) => do
    let g ← grad (r * cos th) (r * sin th)
    if sid = 0 then return dot2 g (evalNormal evalR th)
    else if sid = 1 then return dot2 g (0, 1)
    else if sid = 2 then return dot2 g (sin a, -cos a)
    else throw .unboundLocalError

/-- problems/smooth.py:59-60 `Smooth_Sine.eval_expected` -/
noncomputable def sineExpected (k x _y : ℝ) : ℂ := (sin (k * x) : ℝ)

/-- problems/smooth.py:62-64 `Smooth_Sine.get_grad` -/
noncomputable def sineGrad (k x _y : ℝ) : Py (ℂ × ℂ) := pure ((k * cos (k * x) : ℝ), 0)

/-- problems/smooth.py:71-77 `Smooth_E.eval_expected`: the value and the attributes `kx`, `ky` it leaves behind -/
noncomputable def eExpected (k x y : ℝ) : ℂ × (ℝ × ℝ) :=
  let kx := 4 / 5 * k
  let ky := 3 / 5 * k
  (Complex.exp (Complex.I * ((kx * x + ky * y : ℝ) : ℂ)), (kx, ky))

/-- problems/smooth.py:79-84 `Smooth_E.get_grad`; `st` holds `self.kx` and `self.ky` if they exist -/
noncomputable def eGrad (st : Option (ℝ × ℝ)) (x y : ℝ) : Py (ℂ × ℂ) :=
  match st with
  | none => throw .attributeError
  | some (kx, ky) =>
    let u := Complex.exp (Complex.I * ((kx * x + ky * y : ℝ) : ℂ))
    pure (Complex.I * kx * u, Complex.I * ky * u)

/-- the calls a `Smooth_E` object can receive -/
inductive ECall
  | expected (x y : ℝ)
  | expectedPolar (r th : ℝ)
  | bc (arg : ℝ) (sid : ℕ)
  | grad (x y : ℝ)
  | dUOut (arg : ℝ) (sid : ℕ)

/-- one call: the result (a pair for `get_grad`, otherwise a pair with second component 0) and the new attributes -/
noncomputable def eStep (k : ℝ) (evalR : ℝ → ℝ) (a : ℝ) (st : Option (ℝ × ℝ)) : ECall → Py (ℂ × ℂ) × Option (ℝ × ℝ)
  | .expected x y => (.ok ((eExpected k x y).1, 0), some (eExpected k x y).2)
  | .expectedPolar r th => (.ok ((eExpected k (r * cos th) (r * sin th)).1, 0), some (eExpected k (r * cos th) (r * sin th)).2)
  | .bc arg sid => match argToPolarAbs evalR a arg sid with
    | none => (.error .typeError, st)
    | some (r, th) => (.ok ((eExpected k (r * cos th) (r * sin th)).1, 0), some (eExpected k (r * cos th) (r * sin th)).2)
  | .grad x y => (eGrad st x y, st)
  | .dUOut arg sid => ((smoothDUOut (eGrad st) evalR a arg sid).map fun z => (z, 0), st)

/-- a sequence of calls: the attributes afterwards.  An exception leaves the object as it is. -/
noncomputable def eRun (k : ℝ) (evalR : ℝ → ℝ) (a : ℝ) : Option (ℝ × ℝ) → List ECall → Option (ℝ × ℝ)
  | st, [] => st
  | st, c :: cs => eRun k evalR a (eStep k evalR a st c).2 cs

/-- problems/smooth.py:98 `f_expr` of `Smooth_YCos` with `k` substituted -/
noncomputable def ycosF (k r th : ℝ) : ℂ := ((k ^ 2 - 1) * r * sin th * cos (r * cos th) : ℝ)

/-- problems/smooth.py:101-102 `Smooth_YCos.eval_expected` -/
noncomputable def ycosExpected (x y : ℝ) : ℂ := (y * cos x : ℝ)

/-- problems/smooth.py:104-105 `Smooth_YCos.get_grad` -/
noncomputable def ycosGrad (x y : ℝ) : Py (ℂ × ℂ) := pure ((-y * sin x : ℝ), (cos x : ℝ))

end Pot
