import Mathlib.Analysis.SpecialFunctions.Trigonometric.Basic

/-!
# Specification: plane geometry, independent of the code
-/

namespace Spec
open Real

/-- The plane point with polar coordinates `(r, t)`. -/
noncomputable def polarPoint (r t : ℝ) : ℝ × ℝ := (r * cos t, r * sin t)

/-- The closed computational domain: the plane minus an open wedge of opening `a`, cut off by the
curve `r = rb(t)`: all points `ρ (cos t, sin t)` with `a ≤ t ≤ 2π` and `0 ≤ ρ ≤ rb t`. -/
def Domain (a : ℝ) (rb : ℝ → ℝ) : Set (ℝ × ℝ) :=
  {p | ∃ ρ t, a ≤ t ∧ t ≤ 2 * π ∧ 0 ≤ ρ ∧ ρ ≤ rb t ∧ p = polarPoint ρ t}

/-- Euclidean distance in the plane, written out. -/
noncomputable def dist2 (p q : ℝ × ℝ) : ℝ := √((p.1 - q.1) ^ 2 + (p.2 - q.2) ^ 2)

/-- The straight line through the origin with direction angle `a`. -/
def Line (a : ℝ) : Set (ℝ × ℝ) := {p | ∃ t : ℝ, p = polarPoint t a}

end Spec
