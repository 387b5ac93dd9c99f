import Mathlib.Analysis.Calculus.Deriv.Basic
import Mathlib.Analysis.Complex.Basic

/-!
# Specification: families of partial derivatives of a function of two real variables
-/

namespace Spec

/-- `U i j` is the partial derivative `∂₁^i ∂₂^j` of `U 0 0`, for all `i + j ≤ n`:
each first derivative in either variable of `U i j` (`i + j < n`) is the next member of the family. -/
structure Jet (n : ℕ) (U : ℕ → ℕ → ℝ → ℝ → ℂ) : Prop where
  d1 : ∀ i j, i + j < n → ∀ x y, HasDerivAt (fun t => U i j t y) (U (i + 1) j x y) x
  d2 : ∀ i j, i + j < n → ∀ x y, HasDerivAt (fun t => U i j x t) (U i (j + 1) x y) y

end Spec
