import Mathlib.Analysis.Calculus.Deriv.Basic

/-!
# Specification: the Helmholtz equation in polar coordinates at a point
-/

namespace Spec
open Filter Topology

/-- `φ` is differentiable near `x`, with first and second derivative `d1` and `d2` at `x` -/
def TwiceAt (φ : ℝ → ℝ) (x d1 d2 : ℝ) : Prop :=
  ∃ d : ℝ → ℝ, (∀ᶠ y in 𝓝 x, HasDerivAt φ (d y) y) ∧ d x = d1 ∧ HasDerivAt d d2 x

/-- `u_rr + u_r / r + u_θθ / r² + k² u = F` at the point with polar coordinates `(r, θ)` -/
def HelmholtzAt (k : ℝ) (u : ℝ → ℝ → ℝ) (F : ℝ) (r th : ℝ) : Prop :=
  ∃ ur urr ut utt, TwiceAt (fun ρ => u ρ th) r ur urr ∧ TwiceAt (u r) th ut utt ∧
    urr + ur / r + utt / r ^ 2 + k ^ 2 * u r th = F

end Spec
