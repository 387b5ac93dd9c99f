import Verif.Model.Grid
import Verif.Model.Boundary

/-! # The attributes set by `Solver.__init__` and the first lines of `PizzaSolver.__init__` -/

namespace Pot

/-- solver.py:24-29 and ps/ps.py:28-33: `N`, `AD_len`, `a`, `R` and the boundary object with the radius function `r`; `b` is
SciPy's `brentq` -/
noncomputable def mkEnv (b : Brentq) (N : ℕ) (AD a R : ℝ) (r : ℝ → ℝ) : Env :=
  ⟨N, AD, a, R, r, getBoundaryCoord b a r⟩

end Pot
