import Mathlib.Analysis.Calculus.ContDiff.Basic
import Mathlib.Analysis.Calculus.Deriv.Basic

/-!
# Specification: resonance of a square, independent of the code
-/

namespace Spec

/-- The wavenumber `k` is resonant for the square of side `s` centred at the origin: the Helmholtz equation has a solution
that vanishes on the four sides and is not zero inside. -/
def SquareResonance (s k : ℝ) : Prop :=
  ∃ u : ℝ → ℝ → ℝ, ContDiff ℝ 2 (fun p : ℝ × ℝ => u p.1 p.2) ∧
    (∀ t, |t| ≤ s / 2 → u (s / 2) t = 0 ∧ u (-(s / 2)) t = 0 ∧ u t (s / 2) = 0 ∧ u t (-(s / 2)) = 0) ∧
    (∃ x y, |x| < s / 2 ∧ |y| < s / 2 ∧ u x y ≠ 0) ∧
    ∀ x y, |x| < s / 2 → |y| < s / 2 →
      deriv (deriv fun ξ => u ξ y) x + deriv (deriv fun η => u x η) y + k ^ 2 * u x y = 0

end Spec
