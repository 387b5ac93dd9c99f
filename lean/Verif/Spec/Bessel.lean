import Mathlib.Analysis.SpecialFunctions.Gamma.Basic
import Mathlib.Analysis.SpecialFunctions.Pow.Real
import Mathlib.Topology.Algebra.InfiniteSum.Basic

/-!
# Specification: the Bessel function of the first kind
-/

namespace Spec

/-- `J_mu(x) = Σ (-1)^l / (l! Γ(mu + l + 1)) (x/2)^(2 l + mu)` for `x ≥ 0` -/
noncomputable def besselJ (mu x : ℝ) : ℝ :=
  ∑' l : ℕ, (-1) ^ l / ((l.factorial : ℝ) * Real.Gamma (mu + l + 1)) * (x / 2) ^ (2 * l) * (x / 2) ^ mu

end Spec
