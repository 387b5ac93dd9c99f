import Verif.Spec.Plane
import Mathlib.Analysis.Calculus.FDeriv.Basic
import Mathlib.Analysis.Calculus.Deriv.Basic
import Mathlib.Analysis.Calculus.IteratedDeriv.Defs
import Mathlib.Analysis.Complex.Basic

/-! # Cauchy data of a function on the three pieces of the boundary -/

namespace Spec
open Real

/-- unit normal of the curve `t ↦ (r(t) cos t, r(t) sin t)`, to the right of the direction of travel -/
noncomputable def curveNormal (r : ℝ → ℝ) (t : ℝ) : ℝ × ℝ :=
  let dx := deriv (fun s => r s * cos s) t
  let dy := deriv (fun s => r s * sin s) t
  (dy / √(dx ^ 2 + dy ^ 2), -(dx / √(dx ^ 2 + dy ^ 2)))

/-- value (index 0) and outward normal derivative (index 1) of `u` on the outer curve (segment 0, by the angle), on the positive
`x` axis (segment 1, by the abscissa) and on the ray of angle `a` (segment 2, by the radius) -/
noncomputable def cauchyData (u : ℝ × ℝ → ℂ) (a : ℝ) (r : ℝ → ℝ) : Fin 3 → Fin 2 → ℝ → ℂ
  | 0, 0 => fun t => u (polarPoint (r t) t)
  | 0, 1 => fun t => fderiv ℝ u (polarPoint (r t) t) (curveNormal r t)
  | 1, 0 => fun t => u (t, 0)
  | 1, 1 => fun t => fderiv ℝ u (t, 0) (0, 1)
  | 2, 0 => fun t => u (polarPoint t a)
  | 2, 1 => fun t => fderiv ℝ u (polarPoint t a) (sin a, -cos a)

/-- `u_xx + u_yy + k² u = 0` in the whole plane -/
def HelmholtzPlane (k : ℝ) (u : ℝ × ℝ → ℂ) : Prop :=
  ∀ x y, deriv (deriv fun t => u (t, y)) x + deriv (deriv fun t => u (x, t)) y + (k : ℂ) ^ 2 * u (x, y) = 0

/-- `u_xx + u_yy + k² u = f` in the whole plane -/
def HelmholtzSource (k : ℝ) (u f : ℝ × ℝ → ℂ) : Prop :=
  ∀ x y, deriv (deriv fun t => u (t, y)) x + deriv (deriv fun t => u (x, t)) y + (k : ℂ) ^ 2 * u (x, y) = f (x, y)

end Spec
