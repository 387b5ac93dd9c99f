import Verif.Model.Py
import Mathlib.Data.Real.Basic

/-!
# Specification: quintic interpolation on a rectangular grid

The contract of `scipy.interpolate.interp2d(x, y, z, kind='quintic')` for one-dimensional `z` on a grid: it needs strictly
increasing coordinates and at least six points in both directions, and the function returned takes the value `z[i * len(y) + j]`
at the grid point `(x[i], y[j])`.
-/

namespace Spec
open Pot

def IsInterp2d (interp2d : List ℝ → List ℝ → List ℝ → Py (ℝ → ℝ → ℝ)) : Prop :=
  ∀ x y z : List ℝ, x.Pairwise (· < ·) → y.Pairwise (· < ·) → 6 ≤ x.length → 6 ≤ y.length → z.length = x.length * y.length →
    ∃ F, interp2d x y z = .ok F ∧ ∀ i < x.length, ∀ j < y.length, F (x.getD i 0) (y.getD j 0) = z.getD (i * y.length + j) 0

end Spec
