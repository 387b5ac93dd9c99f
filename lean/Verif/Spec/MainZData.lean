import Mathlib.Analysis.SpecialFunctions.Trigonometric.Basic
import Mathlib.Analysis.SpecialFunctions.Gamma.Basic
import Mathlib.Analysis.SpecialFunctions.Pow.Real

/-!
# Specification: sine coefficients on an arc, partial sums of Bessel functions
-/

namespace Spec

/-- the coefficient of the `(j + 1)`-st sine of the function `f` on the arc from `a` to `2π`, from `N` equally spaced inner points -/
noncomputable def arcCoef (a : ℝ) (f : ℝ → ℝ) (N j : ℕ) : ℝ :=
  2 / (N + 1) * ∑ l ∈ Finset.Ico 1 (N + 1), f (a + l * ((2 * Real.pi - a) / (N + 1))) * Real.sin (Real.pi * (j + 1) * l / (N + 1))

/-- the first `n` terms of the series of the Bessel function of order `mu` -/
noncomputable def besselPartial (mu : ℝ) (n : ℕ) (x : ℝ) : ℝ :=
  ∑ l ∈ Finset.range n, (-1) ^ l / ((l.factorial : ℝ) * Real.Gamma (mu + l + 1)) * (x / 2) ^ (2 * l) * (x / 2) ^ mu

end Spec
